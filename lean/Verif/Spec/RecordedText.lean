import Verif.Spec.Layout

/-!
# The files testdata/P256rp.json and testdata/P384rp.json, line by line

Copied from the repository; every line ends with a line feed.
-/

set_option autoImplicit false

namespace MscPoc

/-- testdata/P256rp.json:2-5, `ballot` -/
def recLinesCt256 : List String := [
"  \"ballot\": {",
"    \"u\": 308406671205246643734810410579819999445889735773129804698503429245931193219792625267522416948583514863340719358845333937042622364103776871334974011051362785320951554030585340133501217194935065175615342523244431745067592641078402050011518669349689375502853107650968830036063867668364658744453948490262219745551095641265532178284843627945879780013361682429368431189671469031014782643259813704670018191693886210654314042224094739740731898647774344369151028584495301528070918517964304846876079728927335890187346167127852085443811983895133248312696490259453011778324209672867156169174989763922432579739608263431237064933461406329814816924469606882577885196975504281181298769997842122630440063802788869160485790457116335378767724571448269198110194301102016926064152629343160016948041544329584921867753922706460980330454774063165172267068440740009387724588145444532217185508390155442345653426190172333649256785620661968717144560487,",
"    \"v\": 4328529856127597929872538367667225560195279891663542160566954046197577386299981210220068684338556581303501980554760981059930600297089260979718285938506706736497525586648543988514026126459116392137634863110208172986243006362562754118808377500863047517949910303387285454411829200390323859812898819127326482152438063910988811298007682803508421306165518415559769537518898569987250890573272557386776627985170859923883492006501414620345336506510040323283825872582944029824607121700479563498345265210784260053717387627528344524013097479682789029772864878135059558191509710112518003586292675428952825050554710335506624442142485907498150083736221986635064353630516106284110686944694594565476976588040115527033872945355831077997562426177070429188208911600217194621623653897981366031109415971407544265479274083099989492348391236704790913133351259800375081204145460911669201728303896654186849661815227925553093434718323659662915247213925",
"  },"]

/-- testdata/P256rp.json:6-358, `lbProof` -/
def recLinesLo256 : List String := [
"  \"lbProof\": {",
"    \"V\": {",
"      \"x\": 15872009714997993943836853516254751580922668646252453252530278042253279190597,",
"      \"y\": 74734567453564381986321965913354195664713106238603999140811171362845058920647",
"    },",
"    \"A\": {",
"      \"x\": 11191059285452651270190750177249916164365095399750287316480511365759533693757,",
"      \"y\": 68266843238076090374086458758944200460746695283487830806407599689222017023716",
"    },",
"    \"S\": {",
"      \"x\": 35022734254775405925412836708759965671163654440259669357081550173487157346075,",
"      \"y\": 86498009606627304312536823334292806882422758855600853140555879542263264628119",
"    },",
"    \"T1\": {",
"      \"x\": 75502257014740016447662927252201233491024782120250656875640128737544140875711,",
"      \"y\": 40935462140051788778928070722125899674997692294167648969854661470379220919387",
"    },",
"    \"T2\": {",
"      \"x\": 60655797839599736817211750965806687889972678169399711741981076228129108103921,",
"      \"y\": 77709822475345117349078439818882330415663189213134500222646149586905941693256",
"    },",
"    \"Taux\": 1444420141858815242948001313196053002787319471220495599215618970968445134002,",
"    \"Mu\": 73687954355930788098952627294755114621994905614166519984028974166352556079096,",
"    \"Tprime\": 4492700351722129784654569994465218630580283185541356257781628897188746786341,",
"    \"InnerProductProof\": {",
"      \"P\": {",
"        \"x\": 113644882273806193480891780587580899328253492485047674350210955763866618158942,",
"        \"y\": 44521002943085486241931030371782971287543496557966318709358532543652453460751",
"      },",
"      \"Cc\": 4492700351722129784654569994465218630580283185541356257781628897188746786341,",
"      \"a\": 80292402066619527979870244003322832306512052170801594432394958110003117714779,",
"      \"b\": 72624811035438862031934699920895441786308786691361740016368432043125005834992,",
"      \"L\": [",
"        {",
"          \"x\": 41753609328027613531093936511426155472861600600370660821705993525729223695949,",
"          \"y\": 30778655410981089214336741921395600969114182066030379842732274151139818316207",
"        },",
"        {",
"          \"x\": 32076490200817858748100296068874988153837481311882720525288740049764968115509,",
"          \"y\": 107535112765452086169481552102215629879988715179314441506570122113686841347389",
"        },",
"        {",
"          \"x\": 13132787881854000093517899520552256646381307558843674736943327416070127025528,",
"          \"y\": 106649450820012969796427978138068864875925507542481325071960469488445036488296",
"        },",
"        {",
"          \"x\": 15569319975982761858077943802852357016590918699850280921018958423835786121561,",
"          \"y\": 61981323785828197954624666907209406020453902959948931321715530933575034469908",
"        }",
"      ],",
"      \"R\": [",
"        {",
"          \"x\": 66212590928430890950815287874030351160129549142816481750787884717896472922006,",
"          \"y\": 45641693654210132884697835663286188809135624998943262155782616922809916402901",
"        },",
"        {",
"          \"x\": 13043326805693732969999069502789167545983946090425430182758324147419125414356,",
"          \"y\": 107728332661743395652430288563979637306779692843503265193980699026148059578628",
"        },",
"        {",
"          \"x\": 75555254361577856793363356181843151900432195191671522060083968783143369142056,",
"          \"y\": 65230532731166696974900022419735300785250010003828686452084858204013228562207",
"        },",
"        {",
"          \"x\": 34878897677022975526223835756101085672686877741860127535304480907223594658860,",
"          \"y\": 85682932133938809454863441991465436124558460549129735175946617279305385029086",
"        }",
"      ],",
"      \"Params\": {",
"        \"Gg\": [",
"          {",
"            \"x\": 53079784119516401339479582045425009412614388269182267843936614688309414253522,",
"            \"y\": 59141829676737944340210437150432433716616161038702325060676886543531931901969",
"          },",
"          {",
"            \"x\": 28513663828972868242094849493121260941352270404282443362450000420852018333089,",
"            \"y\": 56873426028251772966632609916664420439964682959401156712599266652734665073841",
"          },",
"          {",
"            \"x\": 94742541772373688646733840529484766951215697501831669552677478754230253706643,",
"            \"y\": 93295231398684243101605622678899379873814951461941378636395131856573634113333",
"          },",
"          {",
"            \"x\": 49514871972087407555136145720083198445958850365832427099576209232849937854839,",
"            \"y\": 9389298957476010409382564938206604911839858498272757289687311507484104466550",
"          },",
"          {",
"            \"x\": 5817942807557129600707697744948290243393812541558463534214987829508555324467,",
"            \"y\": 94259547106507145723741009133200539015127563897713470211280437344508258324060",
"          },",
"          {",
"            \"x\": 107469079734420330794504968144236544829663921055140570533173005188541755339089,",
"            \"y\": 76220206290696226011916824618079606285695592678343110775208408029893772965248",
"          },",
"          {",
"            \"x\": 66334711407327686354789072588740226414918350347670323737881612357296002983300,",
"            \"y\": 25885091944896024669350334941697426225280581136249430276562898531996718599871",
"          },",
"          {",
"            \"x\": 112859210167865730296123353607217212329155688434277422790259488551987194779898,",
"            \"y\": 4740270579645689421376162373396181890990030810459497039405751219700470232717",
"          },",
"          {",
"            \"x\": 5136669310961283993481318320004229839058015320774135213503751383609124033852,",
"            \"y\": 50404915047514623730362959544886181662457644315792493822230795164906377340165",
"          },",
"          {",
"            \"x\": 87625277159171447748575104289910881315539461741702644833116386985824295098405,",
"            \"y\": 9057294876130722737168641516379373211714460422560515176926102243743440131457",
"          },",
"          {",
"            \"x\": 81246266467001661793246233349085684465078327715434832933384650767026336777311,",
"            \"y\": 41659876245855356753369102709052669071849399219990635207991190844792280664663",
"          },",
"          {",
"            \"x\": 86526275402565861623281244325640923491813895327024385589145451149083882023806,",
"            \"y\": 79071552004115074177230312623579010918909062148949846471907519057575262345366",
"          },",
"          {",
"            \"x\": 50037274677303342652895440753618739479404899256808580998925354809496160802960,",
"            \"y\": 30695640799984457281510802175307635687129860254120546959351887907739225439758",
"          },",
"          {",
"            \"x\": 18495961815847543860220466763618066420656273353951030659094364072067132973487,",
"            \"y\": 71313744268395038722204249657115633907082561391391234904707787615333758390275",
"          },",
"          {",
"            \"x\": 51810863240576918362994397163304642661581545311444719733578909374886847747702,",
"            \"y\": 71572958354769994312275949418923648801188586403904788646708464765562172646697",
"          },",
"          {",
"            \"x\": 73416829741633715682600654493855070925720702462707486413016445513233331252551,",
"            \"y\": 2065128307629106155716787356165918548707007942176530589831228776071365005375",
"          }",
"        ],",
"        \"Hh\": [",
"          {",
"            \"x\": 40307391395771107681147210071156435722407538532172751230138334336261254495055,",
"            \"y\": 37959502790742155385517875923476645640597177070317501869429659471764372843048",
"          },",
"          {",
"            \"x\": 65158239502963060954201172085518572815398594847605100065076525691054494714285,",
"            \"y\": 6569133725799957557648165766754419436617289865348428785108642561413723798182",
"          },",
"          {",
"            \"x\": 51924448724521116074920293284688440628538875722986787577100795016341695701900,",
"            \"y\": 91902763216296143673089839841227736475680085124519819731332236531188262292547",
"          },",
"          {",
"            \"x\": 55480992934281975245098893963485113814483825055057695681387916002443563328135,",
"            \"y\": 109803294003044670199723380921045773168353822809568992894007774760173909928726",
"          },",
"          {",
"            \"x\": 3192952655772129311622038934310064119257881799490361363341313515697631398827,",
"            \"y\": 2468109010730401843622987337984106876684276014768732755976085986227697885854",
"          },",
"          {",
"            \"x\": 80046508949773909438367957108256139737576170331338955302511126426410292373529,",
"            \"y\": 50932675695520592552748984710151105734779433845533790964817642856736598787212",
"          },",
"          {",
"            \"x\": 90921947945631911868221631912967536001884799676777750135708038728842928425172,",
"            \"y\": 19853114854238577977890637682859479315993249477089865196221679460995797680490",
"          },",
"          {",
"            \"x\": 8414841307389384237776364990566537697797053091684639544944926116709396027274,",
"            \"y\": 83107527645044178854827537400421632554592118183315045278830248073357316957687",
"          },",
"          {",
"            \"x\": 52578835542544422712843524850395311754645998557170695356462470318301169172624,",
"            \"y\": 102809476435354458751633122900307354775289781727496373898567306813343750992705",
"          },",
"          {",
"            \"x\": 62146346608695956825769676059943756106510199038452454199732452386825025606973,",
"            \"y\": 22630013678864787409049238026164315988748169493729104919675497328880397316662",
"          },",
"          {",
"            \"x\": 27686465086612665785947695951436637906705516985418854727687095502180088243119,",
"            \"y\": 96236835306494939832105587453340442929298924360844077722903157821902845652541",
"          },",
"          {",
"            \"x\": 787354102469248746854835578285584976727126404158974157265129507589973109846,",
"            \"y\": 8405384000783664499946385059776007084896812146788531759050017373809142406306",
"          },",
"          {",
"            \"x\": 109345230548610397734015143700911009305227505250742087923121514405234105047928,",
"            \"y\": 86732121474088599608823301730578029576854412653490233251964372184452317869347",
"          },",
"          {",
"            \"x\": 84866892966591963800582363314641692649643096193419825945015826436815118708351,",
"            \"y\": 56755431264989687494908518870492301934590338337465401812350777712739844739062",
"          },",
"          {",
"            \"x\": 1447242076596649823027202270845659213823470236050100320688208965609823281696,",
"            \"y\": 4658356885206158516972470739409973872121539927098481999806865855733601350285",
"          },",
"          {",
"            \"x\": 111153342217138366379572424801711663430123261031863603513905299174222316878695,",
"            \"y\": 51610577592191018471455192577302870017178761940941358418946962660558958072699",
"          }",
"        ],",
"        \"Uu\": {",
"          \"x\": 106859384341205110865699581621807124758569248035789683803852695954755553556124,",
"          \"y\": 108891429419359432596893071039607436237706895890210981898946471850048952598019",
"        },",
"        \"GP\": { \"group\": \"P-256\" }",
"      }",
"    },",
"    \"Params\": {",
"      \"N\": 16,",
"      \"G\": {",
"        \"x\": 48439561293906451759052585252797914202762949526041747995844080717082404635286,",
"        \"y\": 36134250956749795798585127919587881956611106672985015071877198253568414405109",
"      },",
"      \"H\": {",
"        \"x\": 33260053626570487900468032302662687392790049867146280857480245638450854891277,",
"        \"y\": 105387390762931222622500619751438151695113558966912483140490391977628851402970",
"      },",
"      \"Gg\": [",
"        {",
"          \"x\": 53079784119516401339479582045425009412614388269182267843936614688309414253522,",
"          \"y\": 59141829676737944340210437150432433716616161038702325060676886543531931901969",
"        },",
"        {",
"          \"x\": 28513663828972868242094849493121260941352270404282443362450000420852018333089,",
"          \"y\": 56873426028251772966632609916664420439964682959401156712599266652734665073841",
"        },",
"        {",
"          \"x\": 94742541772373688646733840529484766951215697501831669552677478754230253706643,",
"          \"y\": 93295231398684243101605622678899379873814951461941378636395131856573634113333",
"        },",
"        {",
"          \"x\": 49514871972087407555136145720083198445958850365832427099576209232849937854839,",
"          \"y\": 9389298957476010409382564938206604911839858498272757289687311507484104466550",
"        },",
"        {",
"          \"x\": 5817942807557129600707697744948290243393812541558463534214987829508555324467,",
"          \"y\": 94259547106507145723741009133200539015127563897713470211280437344508258324060",
"        },",
"        {",
"          \"x\": 107469079734420330794504968144236544829663921055140570533173005188541755339089,",
"          \"y\": 76220206290696226011916824618079606285695592678343110775208408029893772965248",
"        },",
"        {",
"          \"x\": 66334711407327686354789072588740226414918350347670323737881612357296002983300,",
"          \"y\": 25885091944896024669350334941697426225280581136249430276562898531996718599871",
"        },",
"        {",
"          \"x\": 112859210167865730296123353607217212329155688434277422790259488551987194779898,",
"          \"y\": 4740270579645689421376162373396181890990030810459497039405751219700470232717",
"        },",
"        {",
"          \"x\": 5136669310961283993481318320004229839058015320774135213503751383609124033852,",
"          \"y\": 50404915047514623730362959544886181662457644315792493822230795164906377340165",
"        },",
"        {",
"          \"x\": 87625277159171447748575104289910881315539461741702644833116386985824295098405,",
"          \"y\": 9057294876130722737168641516379373211714460422560515176926102243743440131457",
"        },",
"        {",
"          \"x\": 81246266467001661793246233349085684465078327715434832933384650767026336777311,",
"          \"y\": 41659876245855356753369102709052669071849399219990635207991190844792280664663",
"        },",
"        {",
"          \"x\": 86526275402565861623281244325640923491813895327024385589145451149083882023806,",
"          \"y\": 79071552004115074177230312623579010918909062148949846471907519057575262345366",
"        },",
"        {",
"          \"x\": 50037274677303342652895440753618739479404899256808580998925354809496160802960,",
"          \"y\": 30695640799984457281510802175307635687129860254120546959351887907739225439758",
"        },",
"        {",
"          \"x\": 18495961815847543860220466763618066420656273353951030659094364072067132973487,",
"          \"y\": 71313744268395038722204249657115633907082561391391234904707787615333758390275",
"        },",
"        {",
"          \"x\": 51810863240576918362994397163304642661581545311444719733578909374886847747702,",
"          \"y\": 71572958354769994312275949418923648801188586403904788646708464765562172646697",
"        },",
"        {",
"          \"x\": 73416829741633715682600654493855070925720702462707486413016445513233331252551,",
"          \"y\": 2065128307629106155716787356165918548707007942176530589831228776071365005375",
"        }",
"      ],",
"      \"Hh\": [",
"        {",
"          \"x\": 40307391395771107681147210071156435722407538532172751230138334336261254495055,",
"          \"y\": 37959502790742155385517875923476645640597177070317501869429659471764372843048",
"        },",
"        {",
"          \"x\": 63765427611665347635872403571382773797977545557431834262112300369624490844632,",
"          \"y\": 111623308476309302313442907678717475078226205753461309454702163450367011506448",
"        },",
"        {",
"          \"x\": 45790636883253886312605999694126044578743117553146170093363692368752551408827,",
"          \"y\": 47096103029871467281635204092088538662301601123146895335486707304606146310768",
"        },",
"        {",
"          \"x\": 11018527866927295896608239621096031599666808953615334819795329032046784316167,",
"          \"y\": 10008426637323068004020776159283812432153380998588323128453798726402426270646",
"        },",
"        {",
"          \"x\": 103485532484594899906721808297138399348248104490374412528385656307545381946063,",
"          \"y\": 99765339424402380666685310079930986678775174899187342319084246878204489354642",
"        },",
"        {",
"          \"x\": 90394763298101490618889281273923221786962759496582151983524751125079252437692,",
"          \"y\": 53422483089868727828578660410236512003951115334610869133831891179385906004509",
"        },",
"        {",
"          \"x\": 63114595996802219801607077993060176922301259930841060563174897003514055628862,",
"          \"y\": 35022537044882289480230152919388423696855803438247475316323047379545350071153",
"        },",
"        {",
"          \"x\": 79653327523975222434570322972574500754181643162385393490713786489262027735917,",
"          \"y\": 9312683593534726816027202312436171160002892042810330153737588682222820058512",
"        },",
"        {",
"          \"x\": 20623397370340564095652867306578323063865159978718207719365440893804781153470,",
"          \"y\": 113427673846704724702363891414924061362718217299203163975218802345627924318365",
"        },",
"        {",
"          \"x\": 86815483553515946642765126973645227489393262109402096318070380738144868782903,",
"          \"y\": 56276306811175558632540100781151844688068989337200557552099916426782871406476",
"        },",
"        {",
"          \"x\": 51856069409587948073494109254776909379257785624027773260891481279078654887693,",
"          \"y\": 114280035759728120870192968986362470082751282622946683796381229059327286853966",
"        },",
"        {",
"          \"x\": 39499050320173521708604894634243261320511053240186286765496889539371236029577,",
"          \"y\": 63511670510081083609480968140009820595592799129377463139292448557081222892346",
"        },",
"        {",
"          \"x\": 22772470495442651810565288372803246027702704552421750286323727574731505827194,",
"          \"y\": 49532565503046180933207381587748362121359201177187500682389999982429633153145",
"        },",
"        {",
"          \"x\": 60967292569428993754082264538406751773758050481913480462496659454217093859665,",
"          \"y\": 98299577855058800280401107095426372277307520388769822270444564783353190655590",
"        },",
"        {",
"          \"x\": 47237186846628430709568502583680157145026370825398266284482829740540195041115,",
"          \"y\": 25738864610728828446864545293950695143645789386078564351875962533740210689370",
"        },",
"        {",
"          \"x\": 70635262480530253632161835611972330660993294312335553010487124435703555490349,",
"          \"y\": 89741143859280492116429727099861684720861598012591703572608772408952148556985",
"        }",
"      ],",
"      \"GP\": { \"group\": \"P-256\" }",
"    }",
"  },"]

/-- testdata/P256rp.json:359-715, `ubProof` -/
def recLinesHi256 : List String := [
"  \"ubProof\": {",
"    \"V\": {",
"      \"x\": 49177262786154073222766024431823379740070325351968174478064575739876829149379,",
"      \"y\": 28780636702330256395678956367817380669959664974513378503087705217217401971558",
"    },",
"    \"A\": {",
"      \"x\": 86712021303897916829644565049579878642149409331058306875433816658820176154165,",
"      \"y\": 16787789729875062523738667567234995213625840602662640680069497254443208383982",
"    },",
"    \"S\": {",
"      \"x\": 97582588657506032229613877118574842912250282741986570481969392314971553020122,",
"      \"y\": 26525474959451111679740820562843489122824025485407436253333566404441895011727",
"    },",
"    \"T1\": {",
"      \"x\": 41681694830334839050644319433040112059983294252672304145327909957748738946364,",
"      \"y\": 39393201012355597526618008355766157517023478592581531820581838121832142674165",
"    },",
"    \"T2\": {",
"      \"x\": 41284986615916314899423463314796495177566109933046505908097253377008114433770,",
"      \"y\": 65817484257532116928817786513197447545319023216009732311787235790054289138897",
"    },",
"    \"Taux\": 93471942746118735620827799113709961917666116849494080140032777762065277552460,",
"    \"Mu\": 26639615264947270352229719321381009294574755661871143607245064518023527578156,",
"    \"Tprime\": 27380959017037384477264108284944171692610815176814390253355650260845638341951,",
"    \"InnerProductProof\": {",
"      \"P\": {",
"        \"x\": 99988456136035117172696050880475335781010782216928982771475458728034983318201,",
"        \"y\": 55990282569544712297227003951565861268437068703923662168525798885743894020279",
"      },",
"      \"Cc\": 27380959017037384477264108284944171692610815176814390253355650260845638341951,",
"      \"a\": 114386236252875964038369084218465750360611695311896372781417814258879157435403,",
"      \"b\": 32248735838482749658991917192825219823773424893008342581162962547496927267069,",
"      \"L\": [",
"        {",
"          \"x\": 4280072873690800633106267383317471993437195689312778529837362814359068139179,",
"          \"y\": 11685933347262432559919109249014205401780924019866967709226239721723746523904",
"        },",
"        {",
"          \"x\": 104628266594007174382694150100076287295446701929631539926959872168687366711045,",
"          \"y\": 65551644891497876523751890595708347051241777966294176547978802385394798590279",
"        },",
"        {",
"          \"x\": 94944167384508715686433873210473184441609794570745010165090782489770264066945,",
"          \"y\": 35959340467335242120823850847953408017464649003087678331048100623031623079105",
"        },",
"        {",
"          \"x\": 9547589175885500153091296916723205857332199661771951036287312795285484105603,",
"          \"y\": 106242625436628373304281978307563068998560382298934060061343341390128576885072",
"        }",
"      ],",
"      \"R\": [",
"        {",
"          \"x\": 115071583428182131214077918316490196170869300913677063865400788945333429263055,",
"          \"y\": 80874096721276419915609289979605865718337310785790588529652153177068793813865",
"        },",
"        {",
"          \"x\": 61106761090197464135910648378808219893354927568490673247969098596382905608532,",
"          \"y\": 16065004538035268253494827940882788076295107590079763822724101140395090965577",
"        },",
"        {",
"          \"x\": 52507192836922556813979063540602073858342453903475989394298295165850153799006,",
"          \"y\": 91982390886118933381975734157895632303383856806527765277327177351155206051015",
"        },",
"        {",
"          \"x\": 97753813520434663911333779202434207387906462183027263047975690290238596071306,",
"          \"y\": 67896225001272653902674161082149199138563890626656802190354334140614817513907",
"        }",
"      ],",
"      \"Params\": {",
"        \"Gg\": [",
"          {",
"            \"x\": 53079784119516401339479582045425009412614388269182267843936614688309414253522,",
"            \"y\": 59141829676737944340210437150432433716616161038702325060676886543531931901969",
"          },",
"          {",
"            \"x\": 28513663828972868242094849493121260941352270404282443362450000420852018333089,",
"            \"y\": 56873426028251772966632609916664420439964682959401156712599266652734665073841",
"          },",
"          {",
"            \"x\": 94742541772373688646733840529484766951215697501831669552677478754230253706643,",
"            \"y\": 93295231398684243101605622678899379873814951461941378636395131856573634113333",
"          },",
"          {",
"            \"x\": 49514871972087407555136145720083198445958850365832427099576209232849937854839,",
"            \"y\": 9389298957476010409382564938206604911839858498272757289687311507484104466550",
"          },",
"          {",
"            \"x\": 5817942807557129600707697744948290243393812541558463534214987829508555324467,",
"            \"y\": 94259547106507145723741009133200539015127563897713470211280437344508258324060",
"          },",
"          {",
"            \"x\": 107469079734420330794504968144236544829663921055140570533173005188541755339089,",
"            \"y\": 76220206290696226011916824618079606285695592678343110775208408029893772965248",
"          },",
"          {",
"            \"x\": 66334711407327686354789072588740226414918350347670323737881612357296002983300,",
"            \"y\": 25885091944896024669350334941697426225280581136249430276562898531996718599871",
"          },",
"          {",
"            \"x\": 112859210167865730296123353607217212329155688434277422790259488551987194779898,",
"            \"y\": 4740270579645689421376162373396181890990030810459497039405751219700470232717",
"          },",
"          {",
"            \"x\": 5136669310961283993481318320004229839058015320774135213503751383609124033852,",
"            \"y\": 50404915047514623730362959544886181662457644315792493822230795164906377340165",
"          },",
"          {",
"            \"x\": 87625277159171447748575104289910881315539461741702644833116386985824295098405,",
"            \"y\": 9057294876130722737168641516379373211714460422560515176926102243743440131457",
"          },",
"          {",
"            \"x\": 81246266467001661793246233349085684465078327715434832933384650767026336777311,",
"            \"y\": 41659876245855356753369102709052669071849399219990635207991190844792280664663",
"          },",
"          {",
"            \"x\": 86526275402565861623281244325640923491813895327024385589145451149083882023806,",
"            \"y\": 79071552004115074177230312623579010918909062148949846471907519057575262345366",
"          },",
"          {",
"            \"x\": 50037274677303342652895440753618739479404899256808580998925354809496160802960,",
"            \"y\": 30695640799984457281510802175307635687129860254120546959351887907739225439758",
"          },",
"          {",
"            \"x\": 18495961815847543860220466763618066420656273353951030659094364072067132973487,",
"            \"y\": 71313744268395038722204249657115633907082561391391234904707787615333758390275",
"          },",
"          {",
"            \"x\": 51810863240576918362994397163304642661581545311444719733578909374886847747702,",
"            \"y\": 71572958354769994312275949418923648801188586403904788646708464765562172646697",
"          },",
"          {",
"            \"x\": 73416829741633715682600654493855070925720702462707486413016445513233331252551,",
"            \"y\": 2065128307629106155716787356165918548707007942176530589831228776071365005375",
"          }",
"        ],",
"        \"Hh\": [",
"          {",
"            \"x\": 40307391395771107681147210071156435722407538532172751230138334336261254495055,",
"            \"y\": 37959502790742155385517875923476645640597177070317501869429659471764372843048",
"          },",
"          {",
"            \"x\": 47526001353861759053418407185128540433725973534471991973130138944305772552595,",
"            \"y\": 17573954262576504529297075770055325350016003328295297165854448791133297685988",
"          },",
"          {",
"            \"x\": 47927039938382480361737626728673716590397877601110057681447992011487279817615,",
"            \"y\": 61620347627086317860987720827265418400485081537768490274905446031081372977486",
"          },",
"          {",
"            \"x\": 88781856945178767318373273907861293404267922861277419387009235041681209543161,",
"            \"y\": 21256893953747776533831210194861032406484336556564683007932099604649584586029",
"          },",
"          {",
"            \"x\": 73360472157298543750402243892486783662334339755053082427195196555374955968708,",
"            \"y\": 101995391877833997027319151607317663137117709605010826662883859772442211891617",
"          },",
"          {",
"            \"x\": 42686830655755775997285826486799211577864396760782462354045935297188702878934,",
"            \"y\": 28141514995208664816734407020594836116870889173415850179237238374242990264970",
"          },",
"          {",
"            \"x\": 12508814308184179498930030674245093055629007052750570157527087891076754373780,",
"            \"y\": 29889564657123685604181278022368208372657637224511198686685503322113393668213",
"          },",
"          {",
"            \"x\": 107315450711318792439520161457194134541317935629234118756797772839802009794450,",
"            \"y\": 60945788887561042321406715550099446494356909938858103519544618401424388954766",
"          },",
"          {",
"            \"x\": 47998937134567462562232662683020395695323597402109626917182672974922214240932,",
"            \"y\": 26736742774754621490448550620311479026749076782355344912988119840456771513682",
"          },",
"          {",
"            \"x\": 20372240862405866621594984990704351060699837862578941812854321142236122516037,",
"            \"y\": 25060505044328355498552259880560629578553133954001110761314864860989563507338",
"          },",
"          {",
"            \"x\": 43271362230200547660677709777761632959055389357516783231823959410504508868771,",
"            \"y\": 29715832787409882686313032769255533843948980577224783573232203325253595251719",
"          },",
"          {",
"            \"x\": 107498237360979869360093616266119521284433847464654362134396398068034850305749,",
"            \"y\": 6889747996115246711435068638069536358921197398315666851720055872740868780895",
"          },",
"          {",
"            \"x\": 92771428849956951779861480991283524588947384202754948357063764350810302389388,",
"            \"y\": 95573763648002077126186016019853080371550789244701325688304060363290366223080",
"          },",
"          {",
"            \"x\": 53987610458356583968801757092651340339980329812738064808162617387129299562544,",
"            \"y\": 98249260348175365779309881619450073161667715633659386567364791778619482728195",
"          },",
"          {",
"            \"x\": 108316944041552187100130841467200971197589447347272802727722375795093385547148,",
"            \"y\": 84856212473435453484057399193501643466853021103734946450532017757865008195162",
"          },",
"          {",
"            \"x\": 61297415927638821929816178898368564635046199779689734504793854377287937998040,",
"            \"y\": 31737100133570332373721429486106342671999153545463466914532785082294892306589",
"          }",
"        ],",
"        \"Uu\": {",
"          \"x\": 106859384341205110865699581621807124758569248035789683803852695954755553556124,",
"          \"y\": 108891429419359432596893071039607436237706895890210981898946471850048952598019",
"        },",
"        \"GP\": { \"group\": \"P-256\" }",
"      }",
"    },",
"    \"Commit\": {",
"      \"x\": 99988456136035117172696050880475335781010782216928982771475458728034983318201,",
"      \"y\": 55990282569544712297227003951565861268437068703923662168525798885743894020279",
"    },",
"    \"Params\": {",
"      \"N\": 16,",
"      \"G\": {",
"        \"x\": 48439561293906451759052585252797914202762949526041747995844080717082404635286,",
"        \"y\": 36134250956749795798585127919587881956611106672985015071877198253568414405109",
"      },",
"      \"H\": {",
"        \"x\": 33260053626570487900468032302662687392790049867146280857480245638450854891277,",
"        \"y\": 105387390762931222622500619751438151695113558966912483140490391977628851402970",
"      },",
"      \"Gg\": [",
"        {",
"          \"x\": 53079784119516401339479582045425009412614388269182267843936614688309414253522,",
"          \"y\": 59141829676737944340210437150432433716616161038702325060676886543531931901969",
"        },",
"        {",
"          \"x\": 28513663828972868242094849493121260941352270404282443362450000420852018333089,",
"          \"y\": 56873426028251772966632609916664420439964682959401156712599266652734665073841",
"        },",
"        {",
"          \"x\": 94742541772373688646733840529484766951215697501831669552677478754230253706643,",
"          \"y\": 93295231398684243101605622678899379873814951461941378636395131856573634113333",
"        },",
"        {",
"          \"x\": 49514871972087407555136145720083198445958850365832427099576209232849937854839,",
"          \"y\": 9389298957476010409382564938206604911839858498272757289687311507484104466550",
"        },",
"        {",
"          \"x\": 5817942807557129600707697744948290243393812541558463534214987829508555324467,",
"          \"y\": 94259547106507145723741009133200539015127563897713470211280437344508258324060",
"        },",
"        {",
"          \"x\": 107469079734420330794504968144236544829663921055140570533173005188541755339089,",
"          \"y\": 76220206290696226011916824618079606285695592678343110775208408029893772965248",
"        },",
"        {",
"          \"x\": 66334711407327686354789072588740226414918350347670323737881612357296002983300,",
"          \"y\": 25885091944896024669350334941697426225280581136249430276562898531996718599871",
"        },",
"        {",
"          \"x\": 112859210167865730296123353607217212329155688434277422790259488551987194779898,",
"          \"y\": 4740270579645689421376162373396181890990030810459497039405751219700470232717",
"        },",
"        {",
"          \"x\": 5136669310961283993481318320004229839058015320774135213503751383609124033852,",
"          \"y\": 50404915047514623730362959544886181662457644315792493822230795164906377340165",
"        },",
"        {",
"          \"x\": 87625277159171447748575104289910881315539461741702644833116386985824295098405,",
"          \"y\": 9057294876130722737168641516379373211714460422560515176926102243743440131457",
"        },",
"        {",
"          \"x\": 81246266467001661793246233349085684465078327715434832933384650767026336777311,",
"          \"y\": 41659876245855356753369102709052669071849399219990635207991190844792280664663",
"        },",
"        {",
"          \"x\": 86526275402565861623281244325640923491813895327024385589145451149083882023806,",
"          \"y\": 79071552004115074177230312623579010918909062148949846471907519057575262345366",
"        },",
"        {",
"          \"x\": 50037274677303342652895440753618739479404899256808580998925354809496160802960,",
"          \"y\": 30695640799984457281510802175307635687129860254120546959351887907739225439758",
"        },",
"        {",
"          \"x\": 18495961815847543860220466763618066420656273353951030659094364072067132973487,",
"          \"y\": 71313744268395038722204249657115633907082561391391234904707787615333758390275",
"        },",
"        {",
"          \"x\": 51810863240576918362994397163304642661581545311444719733578909374886847747702,",
"          \"y\": 71572958354769994312275949418923648801188586403904788646708464765562172646697",
"        },",
"        {",
"          \"x\": 73416829741633715682600654493855070925720702462707486413016445513233331252551,",
"          \"y\": 2065128307629106155716787356165918548707007942176530589831228776071365005375",
"        }",
"      ],",
"      \"Hh\": [",
"        {",
"          \"x\": 40307391395771107681147210071156435722407538532172751230138334336261254495055,",
"          \"y\": 37959502790742155385517875923476645640597177070317501869429659471764372843048",
"        },",
"        {",
"          \"x\": 63765427611665347635872403571382773797977545557431834262112300369624490844632,",
"          \"y\": 111623308476309302313442907678717475078226205753461309454702163450367011506448",
"        },",
"        {",
"          \"x\": 45790636883253886312605999694126044578743117553146170093363692368752551408827,",
"          \"y\": 47096103029871467281635204092088538662301601123146895335486707304606146310768",
"        },",
"        {",
"          \"x\": 11018527866927295896608239621096031599666808953615334819795329032046784316167,",
"          \"y\": 10008426637323068004020776159283812432153380998588323128453798726402426270646",
"        },",
"        {",
"          \"x\": 103485532484594899906721808297138399348248104490374412528385656307545381946063,",
"          \"y\": 99765339424402380666685310079930986678775174899187342319084246878204489354642",
"        },",
"        {",
"          \"x\": 90394763298101490618889281273923221786962759496582151983524751125079252437692,",
"          \"y\": 53422483089868727828578660410236512003951115334610869133831891179385906004509",
"        },",
"        {",
"          \"x\": 63114595996802219801607077993060176922301259930841060563174897003514055628862,",
"          \"y\": 35022537044882289480230152919388423696855803438247475316323047379545350071153",
"        },",
"        {",
"          \"x\": 79653327523975222434570322972574500754181643162385393490713786489262027735917,",
"          \"y\": 9312683593534726816027202312436171160002892042810330153737588682222820058512",
"        },",
"        {",
"          \"x\": 20623397370340564095652867306578323063865159978718207719365440893804781153470,",
"          \"y\": 113427673846704724702363891414924061362718217299203163975218802345627924318365",
"        },",
"        {",
"          \"x\": 86815483553515946642765126973645227489393262109402096318070380738144868782903,",
"          \"y\": 56276306811175558632540100781151844688068989337200557552099916426782871406476",
"        },",
"        {",
"          \"x\": 51856069409587948073494109254776909379257785624027773260891481279078654887693,",
"          \"y\": 114280035759728120870192968986362470082751282622946683796381229059327286853966",
"        },",
"        {",
"          \"x\": 39499050320173521708604894634243261320511053240186286765496889539371236029577,",
"          \"y\": 63511670510081083609480968140009820595592799129377463139292448557081222892346",
"        },",
"        {",
"          \"x\": 22772470495442651810565288372803246027702704552421750286323727574731505827194,",
"          \"y\": 49532565503046180933207381587748362121359201177187500682389999982429633153145",
"        },",
"        {",
"          \"x\": 60967292569428993754082264538406751773758050481913480462496659454217093859665,",
"          \"y\": 98299577855058800280401107095426372277307520388769822270444564783353190655590",
"        },",
"        {",
"          \"x\": 47237186846628430709568502583680157145026370825398266284482829740540195041115,",
"          \"y\": 25738864610728828446864545293950695143645789386078564351875962533740210689370",
"        },",
"        {",
"          \"x\": 70635262480530253632161835611972330660993294312335553010487124435703555490349,",
"          \"y\": 89741143859280492116429727099861684720861598012591703572608772408952148556985",
"        }",
"      ],",
"      \"GP\": { \"group\": \"P-256\" }",
"    }",
"  },"]

/-- testdata/P256rp.json:716-760, `voteProof` -/
def recLinesVote256 : List String := [
"  \"voteProof\": {",
"    \"W\": 2197111269982726448077727414163782659799989313586923473434455169933496560195812068422220154946489439287610983004892678770841231980335690453552953298204489990540799152773674089315175177002347123348912691864714654734611254147945718517086856527908762335042898633519839787336877610963027891924103465046451753627299641951576310552592576043982084033581145728285745467304913321311825687982893150522042207605872859931746738154394300711412506072912061426146673623297781833384526753971160459005938265617809166549234322390355127133664631387246213059204973647446116074246456550492727201157731397239205470376983680328476608693798151598318559024695221148012657905527565123536265800105289811153466570071207624813338585353579122444521350787189248779831502564867259275029687264552386898141646684364125084771560595916276135871767389350276515544777873670583953066990644785495239100406817351322733602056630409488214914736542942266322309407937743,",
"    \"Kp\": 301642504802987491553377042678077788325252717839684434087369684993701708640784071896881344588365856091003445730238697091601683734325361347551523213226818318922223898819836706448891588675921871124005038143608726755150155883148819038843052318886230179643734622866673103412342696160245458052608459088241552862585259686452003072113305064256197221138743755492154127903435987660446796618717925236220638488767297514973831732788170254768191573869431782763456572928583621755852672025826545244032740046577823109944437976417171090500372529438220333607982233986212660689050897450362503026491296676838926414897591309685642245973122423516969699866267365924406236273644861115319823202088454518415993561757100053958871937458325250307241535060947033192204016539223595158460988679635905001750218972254191741980615399940966807679069050767831538540891363521097379141086453857259455031262513932493412830327062685365337065988825464426719699224469,",
"    \"Kq1\": {",
"      \"x\": 28515817834998937472816658483183164291681861429393765728546442665719603174739,",
"      \"y\": 112901804728485406089334107694173258739435739761579398525880189332363782995764",
"    },",
"    \"Kq2\": {",
"      \"x\": 94543136553449361460813394461050105813328858960965158086724044809436080644794,",
"      \"y\": 85858033600590543117822697767180702110536474830955690561596291103343793237185",
"    },",
"    \"Challenge\": 272067943160208269052155594169526743876,",
"    \"Z\": 21480335397682280005327399485399708405144747456039199722389928665508617735038,",
"    \"Sp\": 1333490978621572057073220269840617899158406410332709069398098089180874535415751971380300065685099869734165672619555571899488608486352582857404949226757984777214169968833438856179820466995657060069862924405704343078722382350291762544887010112955621010733284691063007286553790602365382906234334418420616309285841948794078389675213518064570884910362850290877366038987465174805256113457987369256239370434381164548820623997174123785497531828778744700415416461519056482061154832888634975289790173917230165608943306977665572240436453146466573509239587304602273592151189800799571642964158521415883193169415692122751114462021619860124584202220086465343759386934195059557252247387498667475695208736607253909845651036019739998443975516815313025966171579444331052187908000575323106313547481946697796310088553612804873990886140591082839225300520592396183335344215807107438716843246915387416797479196378974286220838719368522797381356597532,",
"    \"Sq1\": 68004817141535356889374130551069208365115138766569926289313565864526239561553,",
"    \"Sq2\": 12127195521329046681322266045143285144415617073070744799527760461021022476961,",
"    \"Params\": {",
"      \"Bx\": 16,",
"      \"Bc\": 128,",
"      \"Bg\": 256,",
"      \"Bb\": 111,",
"      \"RangeLo\": 101,",
"      \"RangeHi\": 1000,",
"      \"GFF\": {",
"        \"G\": 2,",
"        \"H\": 8192,",
"        \"N\": 2904802997684979031395957982819600701088306113451450266851450441389868088945495430736047387238669790573686705092823189164021864900375235049105462243933467529582185794084023770471990822258316377533750813217278199096593314495035624330409680602559896846992716648518059116457205085938403768228695638928505924948705103759552666677900560554678448729713135922735698976337979720396746535814197061390255062309244116301232324938425229430622892120464629213143849852656292254812709756731802577714008582857232681547010804645280542012946831280611286601041432898910932635495572541100328489088596413512269495119984587773095385322842946719005857215213204669338157371785577268571015786502138214350716518190900852654329915375595176473012741029965653285502363681239844207787351298473228885142074217994564816426959196058998736316346539056564943243699673898491386392307932616310644828472142108412305659354882267576253677058172351884999257074171903,",
"        \"F\": 5809605995369958062791915965639201402176612226902900533702900882779736177890990861472094774477339581147373410185646378328043729800750470098210924487866935059164371588168047540943981644516632755067501626434556398193186628990071248660819361205119793693985433297036118232914410171876807536457391277857011849897410207519105333355801121109356897459426271845471397952675959440793493071628394122780510124618488232602464649876850458861245784240929258426287699705312584509625419513463605155428017165714465363094021609290561084025893662561222573202082865797821865270991145082200656978177192827024538990239969175546190770645685893438011714430426409338676314743571154537142031573004276428701433036381801705308659830751190352946025482059931306571004727362479688415574702596946457770284148435989129632853918392117997472632693078113129886487399347796982772784615865232621289656944284216824611318709764535152507354116344703769998514148343807,",
"        \"I\": { \"group\": \"RFC3526ModPGroup3072\" }",
"      },",
"      \"GEC\": {",
"        \"G\": {",
"          \"x\": 48439561293906451759052585252797914202762949526041747995844080717082404635286,",
"          \"y\": 36134250956749795798585127919587881956611106672985015071877198253568414405109",
"        },",
"        \"H\": {",
"          \"x\": 33260053626570487900468032302662687392790049867146280857480245638450854891277,",
"          \"y\": 105387390762931222622500619751438151695113558966912483140490391977628851402970",
"        },",
"        \"N\": 115792089210356248762697446949407573529996955224135760342422259061068512044369,",
"        \"F\": 5809605995369958062791915965639201402176612226902900533702900882779736177890990861472094774477339581147373410185646378328043729800750470098210924487866935059164371588168047540943981644516632755067501626434556398193186628990071248660819361205119793693985433297036118232914410171876807536457391277857011849897410207519105333355801121109356897459426271845471397952675959440793493071628394122780510124618488232602464649876850458861245784240929258426287699705312584509625419513463605155428017165714465363094021609290561084025893662561222573202082865797821865270991145082200656978177192827024538990239969175546190770645685893438011714430426409338676314743571154537142031573004276428701433036381801705308659830751190352946025482059931306571004727362479688415574702596946457770284148435989129632853918392117997472632693078113129886487399347796982772784615865232621289656944284216824611318709764535152507354116344703769998514148343807,",
"        \"I\": { \"group\": \"P-256\" }",
"      }",
"    }",
"  }"]

/-- testdata/P256rp.json -/
def recFile256 : List String := "{" :: (recLinesCt256 ++ recLinesLo256 ++ recLinesHi256 ++ recLinesVote256 ++ ["}"])

/-- testdata/P384rp.json:2-5, `ballot` -/
def recLinesCt384 : List String := [
"  \"ballot\": {",
"    \"u\": 1475719509493698164607176040416445509980836085575644967534389083818273226217759127985236139844897501639485898158749490029407429475069877000622022214687176920725812475632421136061298420276981279551705248577292431214993562154569006781093936063281109536144349549357860435535790122399250245907077393259385880676506775409836208797558354142965447218355563820660476475147143518009777932042925848528189866969742893012341800168553196114807745188852473204972024319012948521232797444811855195517898633372051139115018304506940568386403349712996036524289703430532276378260430974774286154028740451532172446535752901636050262195217758035435903094101517900216831472341625204785925872925921824785711769521014725377952962809766768535740376129913287186110190753473030149586995949309840396967268858776384168869898116388173960813543257294620698583432640863091867463892350672735668297119116730336985109323699302438386057599696809100660464411340698,",
"    \"v\": 4024369333723901204444677134648455011042499802539296139096203677313284491772946638477905600280851358466972068664818430384705670494394791436708027847747822719929655617865793057767550482226813385409690851479645985361636818460366107020735819679376881897004554052869352039803503089311067405613450998981844174586543487544692261061470263741206114873436963757977298028152598146265581257226263948218793275833038328781644990901333551770381210093822582197419732165615765106878557763336113887642070694430776035468539281217726751510046232935647237043994257969212617712144070469531047417292530303287238015780554723737262443804648560971581671362163611024770285011111727078132970613270494731167986232985710488267125164755712751455478523132406594174458480318181098030997875090366545671414097176383670611562116938063859143565717345070139877301542157774946238769548177812988522423909872944567660228724862204294295447906752269992006435939328804",
"  },"]

/-- testdata/P384rp.json:6-358, `lbProof` -/
def recLinesLo384 : List String := [
"  \"lbProof\": {",
"    \"V\": {",
"      \"x\": 7742717205026980458859010669874244672502703223940969127926002636938375522537355721819093842637142103190007304628382,",
"      \"y\": 33602859440391869840036212453671398072448779386278942304353211142930109266832067132516456721193598204010460502610111",
"    },",
"    \"A\": {",
"      \"x\": 23898613798550008789014379625076204602590987697049750666694125099449199044538096287070184008305422731510059745344519,",
"      \"y\": 2464814926330899169016637649497551205009157181085750856007069260897978541214130833797523241463347499080239306412426",
"    },",
"    \"S\": {",
"      \"x\": 7364438427968081076743669652929121054212707863630490819238371395392945186683957279571132561225108332497133018477075,",
"      \"y\": 5594234974863167006176405264658441412797614972099306120464263787564941994873168479515111888228833724250743992039376",
"    },",
"    \"T1\": {",
"      \"x\": 18318784483709096076270055888576124089988152661637592263717656052243347232259986211209011535540536759543337013074001,",
"      \"y\": 20272516695719311505547109090195097282700741254468248037328638452208442645607079340694188740253647469823184067646308",
"    },",
"    \"T2\": {",
"      \"x\": 28451344499518894063152034521423097372463469666132364053670521954814438550524772808306036312626301084377610618968193,",
"      \"y\": 13775551104154840373160562456113581528546291107667328138224105337209439033632484668939167684403911043990804611561518",
"    },",
"    \"Taux\": 8897571669933561417999871728351585468996238745595496921819680775829470856843494095518310856115789881204857079362513,",
"    \"Mu\": 1144780016477592876895659412156794396774066056716667756450291752450418959775764246124253010840829783895014833737662,",
"    \"Tprime\": 30559218453435250306849728089097385249386458263335890425229787754782179678043455823740943951297604878107758934428109,",
"    \"InnerProductProof\": {",
"      \"P\": {",
"        \"x\": 11061319440886204792323435504201440015269939062965735941348240757009652090503026177643347452373780378541503533369534,",
"        \"y\": 20477498282317052720302529611214436772466609162806504305009585668273559045262576646187205049125763745636991490098656",
"      },",
"      \"Cc\": 30559218453435250306849728089097385249386458263335890425229787754782179678043455823740943951297604878107758934428109,",
"      \"a\": 33158814324872810088052095347947155846091886950439590629860043948763885706067349060131937314913172928707072147853758,",
"      \"b\": 5219474129562504677575549532664697700091004864413820058369599201616519360313292908536086264038352209655322965631992,",
"      \"L\": [",
"        {",
"          \"x\": 23627772739637917694403279215599093117336432155447619809418927694358071598974050102693125270810785316011322029701663,",
"          \"y\": 15516621922834792550486830428584218566114862023227017629093143895137474749388171463161865355596849797459114424856581",
"        },",
"        {",
"          \"x\": 13016868298838169255173970266623697544366665868126478544135371553501661258768997357222410838137611879271179634431929,",
"          \"y\": 1818965046706393128793136195393851305878683110594204685518811054685141445145640411507222524150848659390423033529218",
"        },",
"        {",
"          \"x\": 36238902105170190859382476928286398199254951686847237806441944333051718502583050776816509224972607977596649527152214,",
"          \"y\": 36609289416407301530054271374626204846612982212113953258019957123719420295856241347462618898031110297403640829763926",
"        },",
"        {",
"          \"x\": 23293776185634391393149370191532865444728863419516987836182132263886742771116756820223874185710691584767633015141774,",
"          \"y\": 13620963231016111955824942769816665324160024540457269285406566920880292951618345127120927594429784716984280140085533",
"        }",
"      ],",
"      \"R\": [",
"        {",
"          \"x\": 128529806576788211769337953877500681801337306824720791407826696636424416147740904198822669257665724032004613517493,",
"          \"y\": 18119081890085063935460150064952510179937256581479984582128033094965295655354588459392387138901568579768238021173029",
"        },",
"        {",
"          \"x\": 37601023977961924284983955884399352738563771698883521669321252713925069472593526404706984879546750081572635405620919,",
"          \"y\": 28777542268766875574316360729149644621297805758676375863537410095133191787831012645606368457461049688663884625539400",
"        },",
"        {",
"          \"x\": 16756146563843556231724694375115282792289966975387748582284780500186676519569391598318498279642913835617416375133761,",
"          \"y\": 6505260935317969975330703751571469288805430981844443960364835867385055163433855063583003846811329010263264022692160",
"        },",
"        {",
"          \"x\": 37333964555301019803326756844106504713473226064699661634351333691136189760244103898631957072837422711505894902920974,",
"          \"y\": 26644347142784036926571795279482672239173269081864985221309416469055466406006821363793107194087661657811743580269520",
"        }",
"      ],",
"      \"Params\": {",
"        \"Gg\": [",
"          {",
"            \"x\": 610020259307611677708958825586413803167997105876125584903122387260057036023228466710248615132844905486252925571168,",
"            \"y\": 23493150760499707987756446522679681590507696786621726658927858551908710235364775908935795565168099545317057928310080",
"          },",
"          {",
"            \"x\": 22385405236323175249754482223874412760670951028066355984086053028034087229217608971757908233293068602627273501694845,",
"            \"y\": 36199862870763324563483014439048942609549916515851764544816884071538083282668663596618674903636899491691698690334686",
"          },",
"          {",
"            \"x\": 22252417567014912774397117730768711122145098674464194975785884980210978452481654894465416421350439385735710111052509,",
"            \"y\": 24565427396127605212086886495293251191688901175828906313042964091133038754500841085243216168966810949797413231816219",
"          },",
"          {",
"            \"x\": 12082736027115211476140630635557747913684441251312950219891978172051946100144005079100188119876997993818859178140602,",
"            \"y\": 16185293384731681562258758925485327307190606126320853038230515031003616156413489647406470876456510121922257724791982",
"          },",
"          {",
"            \"x\": 32036669443667025373312662051504279270779089163132178855071001139716703692379413346198507659172545538962301051371884,",
"            \"y\": 23237016203208634800238840616439178607415245946469169863333584500016688869265005173361886614269900394178636685667419",
"          },",
"          {",
"            \"x\": 3704660270111459539018361198944676599517879520502911322538021401854146326663686231762633362175630506746999201679676,",
"            \"y\": 30732373154287579111855723651362694896786666034222548999404112252516058208296790553534528519102997911711405997286479",
"          },",
"          {",
"            \"x\": 36826254099230948766664634710627689056777876052841745516502408472840455878247142706948535243627598961889032543104855,",
"            \"y\": 31211765284883756398049338082673543334047643052828626629285383210961205942911193894271723424799608738288583955519364",
"          },",
"          {",
"            \"x\": 35391464733211640360778574135764467743417724491661511872057385405766247568690456352135268617498015231253495021543693,",
"            \"y\": 25603911938478757517066423065182525433429242653828340982189467100328610313099531200541411059062658762866774741239199",
"          },",
"          {",
"            \"x\": 4391093971023177078284463950838345150689493586947025789581847822698412051983215596725295832695260503445323455342405,",
"            \"y\": 39151543432033482493151696938137736710999004931431278491167233455812299189691879229639640547256103148685433892118395",
"          },",
"          {",
"            \"x\": 11829186304972443213699571824353512672934752850821201227037704955739881245015876258213717472194059218388408609776219,",
"            \"y\": 14733289778364155515034788490875981227465487929786854995601151227531449859022202049221543121363860340367156670933506",
"          },",
"          {",
"            \"x\": 7032942410469894849918210129961581016476135781534957425958505427346693318068098116465639817908805202274053620272129,",
"            \"y\": 8133501771509343899635693749897080882193111288887443938170259291996762018873194785636932682517226615831729958170549",
"          },",
"          {",
"            \"x\": 19591610057988995766849954426091682094622071893565878061589596156122249388878722306431718542489770444921706122516844,",
"            \"y\": 21935940725489537442873033292747159636224018405079094396547200591890656104765102490863655375546113956596076322432046",
"          },",
"          {",
"            \"x\": 31170047759345999565495337081370088380269467400648210545709178557758799157671041226174089045274888216199116218975725,",
"            \"y\": 36571056525150643699585075291586548908670911853996936107987650203136182620901729136167769010680079279778649737860998",
"          },",
"          {",
"            \"x\": 7297564246044535122910195653923982617755040123176901644169036344960783971168720075391156690302715659148347224523739,",
"            \"y\": 21980748881588854677945671986666910659056219077895382164004092664585770473631806078856945146200356232088955591216165",
"          },",
"          {",
"            \"x\": 23458135185458883685242049103358345264410997166639650993334029391493234428858491932840862551997185347672336126749004,",
"            \"y\": 6678419536586006170854716477531262346820271046395970200473245225851499486496187465978360287131794842902397782411717",
"          },",
"          {",
"            \"x\": 36081548982695220419337339080028052598036991878058996012854108458475381257553399655335515200819153791597696506351851,",
"            \"y\": 25558376283572564726895236063401898279472604973178681790410656359365785096279502388565934324696469977093478877051895",
"          }",
"        ],",
"        \"Hh\": [",
"          {",
"            \"x\": 30972905158142208976058603593456242805666777669468339266206783238460750170228364128782832587318449515881859062895786,",
"            \"y\": 37769919640308274884376294315500093411886688769427051687818874113789060045783341757153138178660325532967597544395475",
"          },",
"          {",
"            \"x\": 12087226331699788512426532105373035139194632687334109878219203046742721866766497483769075278298003403571107177470645,",
"            \"y\": 12948570078443015035717552145437029167685311090006693733058578668931085059962621838609619144698888440889259413259710",
"          },",
"          {",
"            \"x\": 15325340298222221301120450241747781662630175333823749475179867680828178194807554883134047787066579258388367422916687,",
"            \"y\": 31732617831747589243379351796970395228767055259768203724729725513350458722117017320942548820632826001995928832999186",
"          },",
"          {",
"            \"x\": 11457487130206928560209291710630314910033390189379446627516558121208514244489825087601760799196964932019790283873651,",
"            \"y\": 37518167534718305785162645052859572744605891699530114748417916933136216254929500975954111465409869293776509481610087",
"          },",
"          {",
"            \"x\": 6446363954212328680009096256737533601270151091278304817383541485465904517376086757570926103030549133170282300091535,",
"            \"y\": 29601186281963385741075450657096385289897442172611378037609159826839770831654872176949514500288856503347959748134165",
"          },",
"          {",
"            \"x\": 14771678400090954069982490883744742534982733849069081816155076310755079786810502562774569015650382588225349974225731,",
"            \"y\": 168069365677850756401311074572514691040807937721244196055498538372848909941098405665497348811932169006425377705998",
"          },",
"          {",
"            \"x\": 16823076182275019406287243111216471071324959419613759022603231851958624232495031431674473777020407189069630873328865,",
"            \"y\": 5014394603836172726838892670787582803858889639381434168303823320128283353818575195507371033953428510078669402467143",
"          },",
"          {",
"            \"x\": 19666852387500044606087654217981428182479345752769859466732210657801632324890282797080107013995354426781117307925212,",
"            \"y\": 26471628296690102628864744885251403025461293126770509857667123892034567738685890565337006943207770921779015885583466",
"          },",
"          {",
"            \"x\": 526770056415576443044290289672174828989922278751701244717714486155001803961028619295807897592760714363150755529787,",
"            \"y\": 39337457867150749107507527116424396906905124018159295958953046928159205002554147367352574857750239310874077782936401",
"          },",
"          {",
"            \"x\": 2877135067856621840378986481024081527475634530857298718943223568932896860669516895107519633002315182762005168728254,",
"            \"y\": 29699785298995904447038276419024674792740624438013471008264737628864844941953752840946093515931651541158077971069042",
"          },",
"          {",
"            \"x\": 8123301320597535489786109476442513275543968031142665526897692074956358029683617491533343301099596097026482240054572,",
"            \"y\": 22527387166913707796861413967008668529147191963495343941441514534926157963738702357290907773138885368221830451264754",
"          },",
"          {",
"            \"x\": 1507048534968731001985311705949753594253877529254437536282803393151682106697862656402704059075245624123414282036917,",
"            \"y\": 22800652233919806119392910806309822023494617106810117616140879901821921586029583729858699120116457532881752737571292",
"          },",
"          {",
"            \"x\": 26734163724027662371271634216683515730235246965222493339213464686207744357390190228573874251619499852289179464119638,",
"            \"y\": 7715382972880908972433922472935046559411972105122532417999377166585219571860586562535282986374434714611420753821346",
"          },",
"          {",
"            \"x\": 8121918761473318169940972541848312270415898661665136378113242220811841682383726830099264340568235267912451280376197,",
"            \"y\": 33278445992149184869500161478731548258297218966688882919799410294775646724448816491369161812363039712315904016114905",
"          },",
"          {",
"            \"x\": 23698346223310249076449276905186729304475499375903399600862302712037070230613872287813118272747368935006736831594002,",
"            \"y\": 13050712965127480231610399594886484939781350205727426477546756099042080344178378950696402649135682499820597377842268",
"          },",
"          {",
"            \"x\": 36311765069985212117103818649562423206334137757091519586147434122017339891185232385760747152414331417846795040046002,",
"            \"y\": 22019832731693742671901660642623754335706671821709479939815478166006473519412752233772225906174363827533970574838466",
"          }",
"        ],",
"        \"Uu\": {",
"          \"x\": 14546743764257722447934518371094768125474657406052245854596217083299992446781577885117633819903998913320850930259758,",
"          \"y\": 37071578328228964578932484931246767499313167269690536903190680866406917335154358247429038249957727841869661093001809",
"        },",
"        \"GP\": { \"group\": \"P-384\" }",
"      }",
"    },",
"    \"Params\": {",
"      \"N\": 16,",
"      \"G\": {",
"        \"x\": 26247035095799689268623156744566981891852923491109213387815615900925518854738050089022388053975719786650872476732087,",
"        \"y\": 8325710961489029985546751289520108179287853048861315594709205902480503199884419224438643760392947333078086511627871",
"      },",
"      \"H\": {",
"        \"x\": 5427950439230643641568112351227818269225873132358842532633260751102855998664079603831673989993167653138123054866274,",
"        \"y\": 39072256125563391001665270841814862420408946252854088958346336094022540790884942166501677395226122625404148590399819",
"      },",
"      \"Gg\": [",
"        {",
"          \"x\": 610020259307611677708958825586413803167997105876125584903122387260057036023228466710248615132844905486252925571168,",
"          \"y\": 23493150760499707987756446522679681590507696786621726658927858551908710235364775908935795565168099545317057928310080",
"        },",
"        {",
"          \"x\": 22385405236323175249754482223874412760670951028066355984086053028034087229217608971757908233293068602627273501694845,",
"          \"y\": 36199862870763324563483014439048942609549916515851764544816884071538083282668663596618674903636899491691698690334686",
"        },",
"        {",
"          \"x\": 22252417567014912774397117730768711122145098674464194975785884980210978452481654894465416421350439385735710111052509,",
"          \"y\": 24565427396127605212086886495293251191688901175828906313042964091133038754500841085243216168966810949797413231816219",
"        },",
"        {",
"          \"x\": 12082736027115211476140630635557747913684441251312950219891978172051946100144005079100188119876997993818859178140602,",
"          \"y\": 16185293384731681562258758925485327307190606126320853038230515031003616156413489647406470876456510121922257724791982",
"        },",
"        {",
"          \"x\": 32036669443667025373312662051504279270779089163132178855071001139716703692379413346198507659172545538962301051371884,",
"          \"y\": 23237016203208634800238840616439178607415245946469169863333584500016688869265005173361886614269900394178636685667419",
"        },",
"        {",
"          \"x\": 3704660270111459539018361198944676599517879520502911322538021401854146326663686231762633362175630506746999201679676,",
"          \"y\": 30732373154287579111855723651362694896786666034222548999404112252516058208296790553534528519102997911711405997286479",
"        },",
"        {",
"          \"x\": 36826254099230948766664634710627689056777876052841745516502408472840455878247142706948535243627598961889032543104855,",
"          \"y\": 31211765284883756398049338082673543334047643052828626629285383210961205942911193894271723424799608738288583955519364",
"        },",
"        {",
"          \"x\": 35391464733211640360778574135764467743417724491661511872057385405766247568690456352135268617498015231253495021543693,",
"          \"y\": 25603911938478757517066423065182525433429242653828340982189467100328610313099531200541411059062658762866774741239199",
"        },",
"        {",
"          \"x\": 4391093971023177078284463950838345150689493586947025789581847822698412051983215596725295832695260503445323455342405,",
"          \"y\": 39151543432033482493151696938137736710999004931431278491167233455812299189691879229639640547256103148685433892118395",
"        },",
"        {",
"          \"x\": 11829186304972443213699571824353512672934752850821201227037704955739881245015876258213717472194059218388408609776219,",
"          \"y\": 14733289778364155515034788490875981227465487929786854995601151227531449859022202049221543121363860340367156670933506",
"        },",
"        {",
"          \"x\": 7032942410469894849918210129961581016476135781534957425958505427346693318068098116465639817908805202274053620272129,",
"          \"y\": 8133501771509343899635693749897080882193111288887443938170259291996762018873194785636932682517226615831729958170549",
"        },",
"        {",
"          \"x\": 19591610057988995766849954426091682094622071893565878061589596156122249388878722306431718542489770444921706122516844,",
"          \"y\": 21935940725489537442873033292747159636224018405079094396547200591890656104765102490863655375546113956596076322432046",
"        },",
"        {",
"          \"x\": 31170047759345999565495337081370088380269467400648210545709178557758799157671041226174089045274888216199116218975725,",
"          \"y\": 36571056525150643699585075291586548908670911853996936107987650203136182620901729136167769010680079279778649737860998",
"        },",
"        {",
"          \"x\": 7297564246044535122910195653923982617755040123176901644169036344960783971168720075391156690302715659148347224523739,",
"          \"y\": 21980748881588854677945671986666910659056219077895382164004092664585770473631806078856945146200356232088955591216165",
"        },",
"        {",
"          \"x\": 23458135185458883685242049103358345264410997166639650993334029391493234428858491932840862551997185347672336126749004,",
"          \"y\": 6678419536586006170854716477531262346820271046395970200473245225851499486496187465978360287131794842902397782411717",
"        },",
"        {",
"          \"x\": 36081548982695220419337339080028052598036991878058996012854108458475381257553399655335515200819153791597696506351851,",
"          \"y\": 25558376283572564726895236063401898279472604973178681790410656359365785096279502388565934324696469977093478877051895",
"        }",
"      ],",
"      \"Hh\": [",
"        {",
"          \"x\": 30972905158142208976058603593456242805666777669468339266206783238460750170228364128782832587318449515881859062895786,",
"          \"y\": 37769919640308274884376294315500093411886688769427051687818874113789060045783341757153138178660325532967597544395475",
"        },",
"        {",
"          \"x\": 2520408441823542817891243413264527965142952721651891263112299537236057572433918598857821186159878096037058241030164,",
"          \"y\": 33910882254812588632255024926908839009571306989949569101984134876218158842354270267711862496619347323082287673052392",
"        },",
"        {",
"          \"x\": 18265426053892891732909803226122363954882684238246833736827798341569799922030552237680821080936224906396198823356236,",
"          \"y\": 13147449210264539192452453544764471978060838977765830530676937185948899624766578041526269947399805486822691538260989",
"        },",
"        {",
"          \"x\": 38104280869035053334297598044908475238199014845942652286694233374428088656479556780855343593741063566473801874360836,",
"          \"y\": 38849974139268638031008420209919315192055953172309887880105017469976635301361271346195213793565732848775478005118248",
"        },",
"        {",
"          \"x\": 20674070216410069364215446200420836229817616097995707009160668959705020640077062033279754197138757985625907504014459,",
"          \"y\": 22076417389878046258606567225655402586639448522393534252858462716079773691884816731603968795476633395063466381086768",
"        },",
"        {",
"          \"x\": 24241042907854308498721657313482543438909946604939400804170950550413928039517050950594064443350893409447884692894867,",
"          \"y\": 26535150752132103049455328344708966005481132944385717917101411135257377183650767082286756157881142704496965636650233",
"        },",
"        {",
"          \"x\": 2202848084900966827538601045453380429394824720369833023624788073564589875584133858318153999219234614379977448936396,",
"          \"y\": 20120440733297654038485951556388492823607825602905603782882956855683438193086731953471160292007120306983683289539232",
"        },",
"        {",
"          \"x\": 31173096335784769039629910084833061748001619435813468138979112409742960679286348500050391946482128373534219325836193,",
"          \"y\": 22915571253651057508741822118853148393888778663746984799612168343793391244959866043333138791628686299562174980629009",
"        },",
"        {",
"          \"x\": 26376547445560376770962977885001172357646012479513120539705346758455323343519229533218769974974858302233478936445785,",
"          \"y\": 9549754862702267908788129112237253709282593774094050224829719698822356783159206487317514294990622093114618062818798",
"        },",
"        {",
"          \"x\": 13901128127340121409895446269454161312772939080105275677659949637730333538544366556089075641077958585254111203640535,",
"          \"y\": 10656589313815316006988532911060574174610816173417058614120705881508542700488610994050118159062820697981388877050122",
"        },",
"        {",
"          \"x\": 9605589613575380433937631821775760312034561721486358262237310851733246665490016397971944352277257393822101757694252,",
"          \"y\": 8060452497389186397182338099283595372787287236625607583539963856850691515551006081500425989546925049873664040680471",
"        },",
"        {",
"          \"x\": 9974641132759498206727130640615212943982532343055793563136166003088703139008813866854348181854046825632649698856793,",
"          \"y\": 26813435626925297586977265166771531845049587871828916185213981823097046041874924117135559342982498305350212547802287",
"        },",
"        {",
"          \"x\": 21155104987650358530765303723244266479146079551908082502840244656575791089632663996686736143824814882928583821891744,",
"          \"y\": 2498096542746114225027117835576390187033961476453614570782026303416402932688052138195410837766686402282820479288669",
"        },",
"        {",
"          \"x\": 32419618227861691737842208049532231414464009295501553213495551031380392854272805262699293310102719157612468216888936,",
"          \"y\": 36374619018062918356269951729885935335669839152760855647930517984550383145767347120529993654732670555494602367757176",
"        },",
"        {",
"          \"x\": 14946532917644972180664495055207344143880261298955816556743180331334140819249870747577809308584369673701405891550884,",
"          \"y\": 7321481226025828030962972509847919333334141170353412487828507117318874971260725889973277008070724994463157263882670",
"        },",
"        {",
"          \"x\": 918259907658959623944529762260964042768454842826470330258002114484037708117950946329472845200207553780459810974356,",
"          \"y\": 35824186082666932625439796983700073398838135788010234509710974948968958269150591789032210374122282772942924672415506",
"        }",
"      ],",
"      \"GP\": { \"group\": \"P-384\" }",
"    }",
"  },"]

/-- testdata/P384rp.json:359-715, `ubProof` -/
def recLinesHi384 : List String := [
"  \"ubProof\": {",
"    \"V\": {",
"      \"x\": 8715510045192224908080445995832608653308172231874264759694726683423808872765555155085279605380516824830021871046753,",
"      \"y\": 7565509855505575832371339740006116376499534979698810895817934986215344110090846425774425607240966314742792331049221",
"    },",
"    \"A\": {",
"      \"x\": 7853050926212948375471969187872278844072947816088008531601513008722010446743652115421925723105130818136604607045167,",
"      \"y\": 2247223761358042007311006308930023891715862470289720787721802144760623588524823658013984565967061073622406648313863",
"    },",
"    \"S\": {",
"      \"x\": 17678508392677535129378035314838369505769393211594410384910847099090843318393818310464395889017991233489002565403520,",
"      \"y\": 16064778314549408361346737835336561251259728704436749783899828172714019510782832647891959219103875204633259245699633",
"    },",
"    \"T1\": {",
"      \"x\": 24258183426498247178129947627559843724632643777196314577754442411740628887861081516203286245382990938658382892907435,",
"      \"y\": 16269553829445895880857384681556771183716280591603937853315081081414237985891908303414175108720274740386028786713111",
"    },",
"    \"T2\": {",
"      \"x\": 21319115319682938942920134713380384732027927149045060863276278135738100018811480458104419773344423448582354338983899,",
"      \"y\": 14350216294495246896105352085199131028926631693937754683656503674454708652718461307834967474021503581350799844399558",
"    },",
"    \"Taux\": 16871402456270477428909262634710235433975412030681720200332556351267376156459117560496162272509638193053581084105280,",
"    \"Mu\": 4847003015967521192175346202300708543881523385114142281485679279339195373977366699123519510889909490014861255257082,",
"    \"Tprime\": 27552359672296443553115609408210791042621137403032048647577102096043932127374736913528724569651415563385787585625926,",
"    \"InnerProductProof\": {",
"      \"P\": {",
"        \"x\": 29595510504559833826208448085422921944023024858246999416413866820227533890262086336089902651968374047669918190910231,",
"        \"y\": 37112463101216526505159958642818164015044047805250902561480414207764888629076199648314691377049873083794723841249323",
"      },",
"      \"Cc\": 27552359672296443553115609408210791042621137403032048647577102096043932127374736913528724569651415563385787585625926,",
"      \"a\": 11222073214444518012879269460256515159932432093066072584659918147120419314439407144031639575475288029367972794286325,",
"      \"b\": 31197716432387211427326827811846158858329371218377141582106128075692593014461572105562658568056649527614432143280492,",
"      \"L\": [",
"        {",
"          \"x\": 12086989744269431121424782175302710217090233468105953583336048561335537282430277960835121328646474377902183240933184,",
"          \"y\": 37536983863398225849319029058649494498475697174742359190021902743066548812233709710423996562263704913694946268936872",
"        },",
"        {",
"          \"x\": 3497906194176757104974893514394606123386831043638381613275973355096715171345564195157453179011255347400793713664228,",
"          \"y\": 39400546453630367389674472682147750427062123699866348334853560814134036855037869597532822244895536040589550998743180",
"        },",
"        {",
"          \"x\": 14956987093521116845263393156919534650502507345586664709277973281385020450171807813679071986092046932976586769547156,",
"          \"y\": 18410712383681518879246376438926548000067365685700474198890220090400171497757143515842202300899156144544481656147283",
"        },",
"        {",
"          \"x\": 7802441195886333938861198680415131662895516943054515931666652740440800102376405499919112542991400859178071001051119,",
"          \"y\": 6118770446585852751121347517560890510161371772405386805862359250378864675539181938626194460116100277116257893310800",
"        }",
"      ],",
"      \"R\": [",
"        {",
"          \"x\": 35212744560799911021544569817122153311443124709040003488273207605816640782872386255664266229767753622106545221550731,",
"          \"y\": 855211033928619750482055564595664136014888346508103014958857946063575294944125456168266947571856596258434980413951",
"        },",
"        {",
"          \"x\": 36762912892617269081033696855240051022650776629928375515123648068465706195012833418823806190414208287127030311351103,",
"          \"y\": 38136974349572945605843608152258350674215271647398731775883091482411125892416574376723922316916771557177121025922500",
"        },",
"        {",
"          \"x\": 20444639462768594915048935644680978557288398715830246599474753758159418697619219626471192796610578217325701277687813,",
"          \"y\": 25017851207930859628968918658838101256401026894935342244127254757096136866364210893570383930624124276166026296653990",
"        },",
"        {",
"          \"x\": 6820307095095685922404340604023814328843621954727852546592749309610067424105732166847931802250230520876386042486348,",
"          \"y\": 37253346062518711082622049577396230261924941574038334884469851554350339802909450687198968557456979711071201090738313",
"        }",
"      ],",
"      \"Params\": {",
"        \"Gg\": [",
"          {",
"            \"x\": 610020259307611677708958825586413803167997105876125584903122387260057036023228466710248615132844905486252925571168,",
"            \"y\": 23493150760499707987756446522679681590507696786621726658927858551908710235364775908935795565168099545317057928310080",
"          },",
"          {",
"            \"x\": 22385405236323175249754482223874412760670951028066355984086053028034087229217608971757908233293068602627273501694845,",
"            \"y\": 36199862870763324563483014439048942609549916515851764544816884071538083282668663596618674903636899491691698690334686",
"          },",
"          {",
"            \"x\": 22252417567014912774397117730768711122145098674464194975785884980210978452481654894465416421350439385735710111052509,",
"            \"y\": 24565427396127605212086886495293251191688901175828906313042964091133038754500841085243216168966810949797413231816219",
"          },",
"          {",
"            \"x\": 12082736027115211476140630635557747913684441251312950219891978172051946100144005079100188119876997993818859178140602,",
"            \"y\": 16185293384731681562258758925485327307190606126320853038230515031003616156413489647406470876456510121922257724791982",
"          },",
"          {",
"            \"x\": 32036669443667025373312662051504279270779089163132178855071001139716703692379413346198507659172545538962301051371884,",
"            \"y\": 23237016203208634800238840616439178607415245946469169863333584500016688869265005173361886614269900394178636685667419",
"          },",
"          {",
"            \"x\": 3704660270111459539018361198944676599517879520502911322538021401854146326663686231762633362175630506746999201679676,",
"            \"y\": 30732373154287579111855723651362694896786666034222548999404112252516058208296790553534528519102997911711405997286479",
"          },",
"          {",
"            \"x\": 36826254099230948766664634710627689056777876052841745516502408472840455878247142706948535243627598961889032543104855,",
"            \"y\": 31211765284883756398049338082673543334047643052828626629285383210961205942911193894271723424799608738288583955519364",
"          },",
"          {",
"            \"x\": 35391464733211640360778574135764467743417724491661511872057385405766247568690456352135268617498015231253495021543693,",
"            \"y\": 25603911938478757517066423065182525433429242653828340982189467100328610313099531200541411059062658762866774741239199",
"          },",
"          {",
"            \"x\": 4391093971023177078284463950838345150689493586947025789581847822698412051983215596725295832695260503445323455342405,",
"            \"y\": 39151543432033482493151696938137736710999004931431278491167233455812299189691879229639640547256103148685433892118395",
"          },",
"          {",
"            \"x\": 11829186304972443213699571824353512672934752850821201227037704955739881245015876258213717472194059218388408609776219,",
"            \"y\": 14733289778364155515034788490875981227465487929786854995601151227531449859022202049221543121363860340367156670933506",
"          },",
"          {",
"            \"x\": 7032942410469894849918210129961581016476135781534957425958505427346693318068098116465639817908805202274053620272129,",
"            \"y\": 8133501771509343899635693749897080882193111288887443938170259291996762018873194785636932682517226615831729958170549",
"          },",
"          {",
"            \"x\": 19591610057988995766849954426091682094622071893565878061589596156122249388878722306431718542489770444921706122516844,",
"            \"y\": 21935940725489537442873033292747159636224018405079094396547200591890656104765102490863655375546113956596076322432046",
"          },",
"          {",
"            \"x\": 31170047759345999565495337081370088380269467400648210545709178557758799157671041226174089045274888216199116218975725,",
"            \"y\": 36571056525150643699585075291586548908670911853996936107987650203136182620901729136167769010680079279778649737860998",
"          },",
"          {",
"            \"x\": 7297564246044535122910195653923982617755040123176901644169036344960783971168720075391156690302715659148347224523739,",
"            \"y\": 21980748881588854677945671986666910659056219077895382164004092664585770473631806078856945146200356232088955591216165",
"          },",
"          {",
"            \"x\": 23458135185458883685242049103358345264410997166639650993334029391493234428858491932840862551997185347672336126749004,",
"            \"y\": 6678419536586006170854716477531262346820271046395970200473245225851499486496187465978360287131794842902397782411717",
"          },",
"          {",
"            \"x\": 36081548982695220419337339080028052598036991878058996012854108458475381257553399655335515200819153791597696506351851,",
"            \"y\": 25558376283572564726895236063401898279472604973178681790410656359365785096279502388565934324696469977093478877051895",
"          }",
"        ],",
"        \"Hh\": [",
"          {",
"            \"x\": 30972905158142208976058603593456242805666777669468339266206783238460750170228364128782832587318449515881859062895786,",
"            \"y\": 37769919640308274884376294315500093411886688769427051687818874113789060045783341757153138178660325532967597544395475",
"          },",
"          {",
"            \"x\": 12121138833668272880178769488380486346390954453303307529021040616000872566114045269640754485199778406291116604817609,",
"            \"y\": 4844480746218131820041529297383874728413440127700451512450283255558653605743829219854481891834962066302203227253564",
"          },",
"          {",
"            \"x\": 9060101690286696518039222220108057008573193679341174910179422864736590978242510461441881011062874451554720256448550,",
"            \"y\": 12535920470196894178370650829746056684932893217288650190739529266048709986376672085507983425158977847227101672521681",
"          },",
"          {",
"            \"x\": 27728413675025117455301668236879998611863991894182925498966545168913612550823276156862214211708704423685032256682522,",
"            \"y\": 10270913421434320674991358138041466011733589145788780005520029648213825248442303806839475631095976318431757681465056",
"          },",
"          {",
"            \"x\": 20274849080322260185335668065904210842882773077875663245085541887046249925494518715165644951098755738163192487111584,",
"            \"y\": 12410372894031162121807051346724330000571903014108458556153283659482452504834754595856035903993515429821413901274710",
"          },",
"          {",
"            \"x\": 9800610886945254220271309121658388436105650092105642764670846768075322672293284117329947575808923781872453549946592,",
"            \"y\": 27824922807083812258944563956270336342139086668294910937068894706858979965695048300063369861152622849357286631487963",
"          },",
"          {",
"            \"x\": 25397336348451803607742927990684031080517244382669768696139037078291398646840536160542436430820132634524001844477418,",
"            \"y\": 7706912342413944599408852283196287748283732427459416316576190797381525279767605071371136524535616850300822847006428",
"          },",
"          {",
"            \"x\": 7785246038960973677400688144696795637574380659065891538605955780878384384975053729616271394446771192339193434630154,",
"            \"y\": 36549716721187276581991783252829678568336479771967201899153471514573970020153300218210940211066677331644214914667453",
"          },",
"          {",
"            \"x\": 5870857132595197242226255704294775760282581832469204251882686103762193102458573351694440365171924562860719590601189,",
"            \"y\": 13208505612240081334863260273529519817624363502525388050194534219931462353398124536565535316806718649914687443104035",
"          },",
"          {",
"            \"x\": 28861584936510881468859792037437561520433628735662393735553457392944550302398191921179372485303759034663736255808910,",
"            \"y\": 3205991328813374348361893691195648308332856249134389332243927816643190058633326393986313680761975253138421042848043",
"          },",
"          {",
"            \"x\": 5308411876272575710607634807011995628098542377899441117789316123118128025138084991338997390895548875396166829088195,",
"            \"y\": 33721993854256395852391065514362205438110170196044705774245587051725514753689671087029108428266242310747814061138416",
"          },",
"          {",
"            \"x\": 3428582102483435470155778650677396894884668215655706274935877334742466255135421476817162848088581762477648261327513,",
"            \"y\": 4506091507669637550080988553129279350405523896014322790526856764530118088536576953959750230046611692245314438777394",
"          },",
"          {",
"            \"x\": 31576608075705137362547369710788777814635311515046149860363328787117786955206325976822514731088668550156899138381849,",
"            \"y\": 23635972298714208088475357213929472951597814470186233156488111672837815708168903346917038361707952479185977732764766",
"          },",
"          {",
"            \"x\": 26230296447445875379841742517938332473017405080718968354226726871369473316678215173228219765404944295955146105306888,",
"            \"y\": 4416654995554110821202822508198321170088215649372123244829771009330531425276181246623929463196909239733853183807787",
"          },",
"          {",
"            \"x\": 19793460730339217761863576412798242607966296438914691547133673420221933153898398733106314984669086926741840257974601,",
"            \"y\": 38063438208693878500691038433242657709826794992593546328297798474401517577000800145743921387805356827921482345806739",
"          },",
"          {",
"            \"x\": 12090816112197472969644359058462349740982759636946802784971663227757702811480957055501491164436377709642369619198508,",
"            \"y\": 26976735256792633285029225715194780666802422187568514773379267644851322488193130194010664575456147500232642143723063",
"          }",
"        ],",
"        \"Uu\": {",
"          \"x\": 14546743764257722447934518371094768125474657406052245854596217083299992446781577885117633819903998913320850930259758,",
"          \"y\": 37071578328228964578932484931246767499313167269690536903190680866406917335154358247429038249957727841869661093001809",
"        },",
"        \"GP\": { \"group\": \"P-384\" }",
"      }",
"    },",
"    \"Commit\": {",
"      \"x\": 29595510504559833826208448085422921944023024858246999416413866820227533890262086336089902651968374047669918190910231,",
"      \"y\": 37112463101216526505159958642818164015044047805250902561480414207764888629076199648314691377049873083794723841249323",
"    },",
"    \"Params\": {",
"      \"N\": 16,",
"      \"G\": {",
"        \"x\": 26247035095799689268623156744566981891852923491109213387815615900925518854738050089022388053975719786650872476732087,",
"        \"y\": 8325710961489029985546751289520108179287853048861315594709205902480503199884419224438643760392947333078086511627871",
"      },",
"      \"H\": {",
"        \"x\": 5427950439230643641568112351227818269225873132358842532633260751102855998664079603831673989993167653138123054866274,",
"        \"y\": 39072256125563391001665270841814862420408946252854088958346336094022540790884942166501677395226122625404148590399819",
"      },",
"      \"Gg\": [",
"        {",
"          \"x\": 610020259307611677708958825586413803167997105876125584903122387260057036023228466710248615132844905486252925571168,",
"          \"y\": 23493150760499707987756446522679681590507696786621726658927858551908710235364775908935795565168099545317057928310080",
"        },",
"        {",
"          \"x\": 22385405236323175249754482223874412760670951028066355984086053028034087229217608971757908233293068602627273501694845,",
"          \"y\": 36199862870763324563483014439048942609549916515851764544816884071538083282668663596618674903636899491691698690334686",
"        },",
"        {",
"          \"x\": 22252417567014912774397117730768711122145098674464194975785884980210978452481654894465416421350439385735710111052509,",
"          \"y\": 24565427396127605212086886495293251191688901175828906313042964091133038754500841085243216168966810949797413231816219",
"        },",
"        {",
"          \"x\": 12082736027115211476140630635557747913684441251312950219891978172051946100144005079100188119876997993818859178140602,",
"          \"y\": 16185293384731681562258758925485327307190606126320853038230515031003616156413489647406470876456510121922257724791982",
"        },",
"        {",
"          \"x\": 32036669443667025373312662051504279270779089163132178855071001139716703692379413346198507659172545538962301051371884,",
"          \"y\": 23237016203208634800238840616439178607415245946469169863333584500016688869265005173361886614269900394178636685667419",
"        },",
"        {",
"          \"x\": 3704660270111459539018361198944676599517879520502911322538021401854146326663686231762633362175630506746999201679676,",
"          \"y\": 30732373154287579111855723651362694896786666034222548999404112252516058208296790553534528519102997911711405997286479",
"        },",
"        {",
"          \"x\": 36826254099230948766664634710627689056777876052841745516502408472840455878247142706948535243627598961889032543104855,",
"          \"y\": 31211765284883756398049338082673543334047643052828626629285383210961205942911193894271723424799608738288583955519364",
"        },",
"        {",
"          \"x\": 35391464733211640360778574135764467743417724491661511872057385405766247568690456352135268617498015231253495021543693,",
"          \"y\": 25603911938478757517066423065182525433429242653828340982189467100328610313099531200541411059062658762866774741239199",
"        },",
"        {",
"          \"x\": 4391093971023177078284463950838345150689493586947025789581847822698412051983215596725295832695260503445323455342405,",
"          \"y\": 39151543432033482493151696938137736710999004931431278491167233455812299189691879229639640547256103148685433892118395",
"        },",
"        {",
"          \"x\": 11829186304972443213699571824353512672934752850821201227037704955739881245015876258213717472194059218388408609776219,",
"          \"y\": 14733289778364155515034788490875981227465487929786854995601151227531449859022202049221543121363860340367156670933506",
"        },",
"        {",
"          \"x\": 7032942410469894849918210129961581016476135781534957425958505427346693318068098116465639817908805202274053620272129,",
"          \"y\": 8133501771509343899635693749897080882193111288887443938170259291996762018873194785636932682517226615831729958170549",
"        },",
"        {",
"          \"x\": 19591610057988995766849954426091682094622071893565878061589596156122249388878722306431718542489770444921706122516844,",
"          \"y\": 21935940725489537442873033292747159636224018405079094396547200591890656104765102490863655375546113956596076322432046",
"        },",
"        {",
"          \"x\": 31170047759345999565495337081370088380269467400648210545709178557758799157671041226174089045274888216199116218975725,",
"          \"y\": 36571056525150643699585075291586548908670911853996936107987650203136182620901729136167769010680079279778649737860998",
"        },",
"        {",
"          \"x\": 7297564246044535122910195653923982617755040123176901644169036344960783971168720075391156690302715659148347224523739,",
"          \"y\": 21980748881588854677945671986666910659056219077895382164004092664585770473631806078856945146200356232088955591216165",
"        },",
"        {",
"          \"x\": 23458135185458883685242049103358345264410997166639650993334029391493234428858491932840862551997185347672336126749004,",
"          \"y\": 6678419536586006170854716477531262346820271046395970200473245225851499486496187465978360287131794842902397782411717",
"        },",
"        {",
"          \"x\": 36081548982695220419337339080028052598036991878058996012854108458475381257553399655335515200819153791597696506351851,",
"          \"y\": 25558376283572564726895236063401898279472604973178681790410656359365785096279502388565934324696469977093478877051895",
"        }",
"      ],",
"      \"Hh\": [",
"        {",
"          \"x\": 30972905158142208976058603593456242805666777669468339266206783238460750170228364128782832587318449515881859062895786,",
"          \"y\": 37769919640308274884376294315500093411886688769427051687818874113789060045783341757153138178660325532967597544395475",
"        },",
"        {",
"          \"x\": 2520408441823542817891243413264527965142952721651891263112299537236057572433918598857821186159878096037058241030164,",
"          \"y\": 33910882254812588632255024926908839009571306989949569101984134876218158842354270267711862496619347323082287673052392",
"        },",
"        {",
"          \"x\": 18265426053892891732909803226122363954882684238246833736827798341569799922030552237680821080936224906396198823356236,",
"          \"y\": 13147449210264539192452453544764471978060838977765830530676937185948899624766578041526269947399805486822691538260989",
"        },",
"        {",
"          \"x\": 38104280869035053334297598044908475238199014845942652286694233374428088656479556780855343593741063566473801874360836,",
"          \"y\": 38849974139268638031008420209919315192055953172309887880105017469976635301361271346195213793565732848775478005118248",
"        },",
"        {",
"          \"x\": 20674070216410069364215446200420836229817616097995707009160668959705020640077062033279754197138757985625907504014459,",
"          \"y\": 22076417389878046258606567225655402586639448522393534252858462716079773691884816731603968795476633395063466381086768",
"        },",
"        {",
"          \"x\": 24241042907854308498721657313482543438909946604939400804170950550413928039517050950594064443350893409447884692894867,",
"          \"y\": 26535150752132103049455328344708966005481132944385717917101411135257377183650767082286756157881142704496965636650233",
"        },",
"        {",
"          \"x\": 2202848084900966827538601045453380429394824720369833023624788073564589875584133858318153999219234614379977448936396,",
"          \"y\": 20120440733297654038485951556388492823607825602905603782882956855683438193086731953471160292007120306983683289539232",
"        },",
"        {",
"          \"x\": 31173096335784769039629910084833061748001619435813468138979112409742960679286348500050391946482128373534219325836193,",
"          \"y\": 22915571253651057508741822118853148393888778663746984799612168343793391244959866043333138791628686299562174980629009",
"        },",
"        {",
"          \"x\": 26376547445560376770962977885001172357646012479513120539705346758455323343519229533218769974974858302233478936445785,",
"          \"y\": 9549754862702267908788129112237253709282593774094050224829719698822356783159206487317514294990622093114618062818798",
"        },",
"        {",
"          \"x\": 13901128127340121409895446269454161312772939080105275677659949637730333538544366556089075641077958585254111203640535,",
"          \"y\": 10656589313815316006988532911060574174610816173417058614120705881508542700488610994050118159062820697981388877050122",
"        },",
"        {",
"          \"x\": 9605589613575380433937631821775760312034561721486358262237310851733246665490016397971944352277257393822101757694252,",
"          \"y\": 8060452497389186397182338099283595372787287236625607583539963856850691515551006081500425989546925049873664040680471",
"        },",
"        {",
"          \"x\": 9974641132759498206727130640615212943982532343055793563136166003088703139008813866854348181854046825632649698856793,",
"          \"y\": 26813435626925297586977265166771531845049587871828916185213981823097046041874924117135559342982498305350212547802287",
"        },",
"        {",
"          \"x\": 21155104987650358530765303723244266479146079551908082502840244656575791089632663996686736143824814882928583821891744,",
"          \"y\": 2498096542746114225027117835576390187033961476453614570782026303416402932688052138195410837766686402282820479288669",
"        },",
"        {",
"          \"x\": 32419618227861691737842208049532231414464009295501553213495551031380392854272805262699293310102719157612468216888936,",
"          \"y\": 36374619018062918356269951729885935335669839152760855647930517984550383145767347120529993654732670555494602367757176",
"        },",
"        {",
"          \"x\": 14946532917644972180664495055207344143880261298955816556743180331334140819249870747577809308584369673701405891550884,",
"          \"y\": 7321481226025828030962972509847919333334141170353412487828507117318874971260725889973277008070724994463157263882670",
"        },",
"        {",
"          \"x\": 918259907658959623944529762260964042768454842826470330258002114484037708117950946329472845200207553780459810974356,",
"          \"y\": 35824186082666932625439796983700073398838135788010234509710974948968958269150591789032210374122282772942924672415506",
"        }",
"      ],",
"      \"GP\": { \"group\": \"P-384\" }",
"    }",
"  },"]

/-- testdata/P384rp.json:716-760, `voteProof` -/
def recLinesVote384 : List String := [
"  \"voteProof\": {",
"    \"W\": 3259754761496105544645133905956996660979279331671303805777132463999479721274131685606143529360960049910859828337187385144367680514065435508904710422890099969408236747254246619869971835987849356754330696834471656802286737426480977300367929667968631572489288828436209344383768925072234500529146644688148499654477166659232094330471786300307470304668716900052803421699197654961072283018630345221179431776657508096083686255193561185631225608558158679142169459082623307163670712212937308662051682027121075988374403795218137044201063342348645956586991478402527398132973921091282961644182657551238131592691290566540482244500429186359594430249196331541317964198489170657397729036999795628644221582043427900628198834405009514441924163215117817681108948151086784478705328668688328809422793327567806804426409687503692027107361303017219945100494112191096333714893350187983548962210138999304541190440326010319486275037391262519116385310698,",
"    \"Kp\": 5023823530888496262672429464948154794417653064142831175138609213776007582640934571163997489127695487733353030083390163424381311905729141122826645027409195553810768728419529152151755182485395262540887891900609378741950002536772024909338375884003950675471661537355528662662043327245495199011206131636271697945521789830108489038223858227681972003112104439932127058224748853484386282338472702216843895915566930463353054858060506258119439807251693756226184195587869378536270901364000845648080025626440368757745426440138786005147564773358713630525941078230076221803412505414124234195691528629137797649684491717843733596470704470749281683481400389323506409934578709945712602001300836323557543437526330687658049384264556977884770837144607823380508130732908757203494283175967602568751136138210261998571341817558885894746038724769086183256159872938995973587003023333784127399503258715825676588139938884962255407159634041340412200757284,",
"    \"Kq1\": {",
"      \"x\": 12099014118519192633896325211163181698405024801536796491930436016896575898546387203236404478937065723676225526672209,",
"      \"y\": 7603837526307481677273801612087743605379771459046819892310546323455731072476696965781955018020993442335783792097019",
"    },",
"    \"Kq2\": {",
"      \"x\": 8823775410814990510783428174914016643729804570941605894762778049523205776558567715937852781048238640965441351648609,",
"      \"y\": 21468825754808923640261110099697453367620318366807325596650874014603240850961867599526277492097885815143553261541575",
"    },",
"    \"Challenge\": 293677955595739022530301068595175946726,",
"    \"Z\": 12055788621189733500599000042005649383307437702254498450111825021422298397142935172614429006448075692907162075139417,",
"    \"Sp\": 2640067700437585013812830997105001648543243578894227232327238986474748104718031677320909560168559956931793240031521103499120886751075132264682693801368974477092699586110993103494671653542377409316995043256288101002948308224224321486940769621803362196570426933333626285218862698788738972654600652342684644689193977925231564592826802179311865004395139179537954321870361528715352561498353593527211878993555402217127353680410751268902609827113365065695906552008023110685151495806210870370785232867035953647031862464726859340751197428272077321691725344636245546160535928499875577218795264432054001219429713985874309866083528141004498339974581419335816784984653679592816152538885223112320803215922540519345299952927987309650704224240577447865627942724980141500399664416097934008259450965137465769274664405279197134897720528916092518294151206219845011211968245690684438630929544421185147283987071827881794549010156013550567212549917,",
"    \"Sq1\": 10951034740031145586827633011931076463463205692411512678043113055041084309026353591210847103850454192969603969857563,",
"    \"Sq2\": 29361421334682615831861364509178635877179230988635880062088640637113506659753540551625440528263201180747186391068478,",
"    \"Params\": {",
"      \"Bx\": 16,",
"      \"Bc\": 128,",
"      \"Bg\": 384,",
"      \"Bb\": 239,",
"      \"RangeLo\": 101,",
"      \"RangeHi\": 1000,",
"      \"GFF\": {",
"        \"G\": 2,",
"        \"H\": 8192,",
"        \"N\": 2904802997684979031395957982819600701088306113451450266851450441389868088945495430736047387238669790573686705092823189164021864900375235049105462243933467529582185794084023770471990822258316377533750813217278199096593314495035624330409680602559896846992716648518059116457205085938403768228695638928505924948705103759552666677900560554678448729713135922735698976337979720396746535814197061390255062309244116301232324938425229430622892120464629213143849852656292254812709756731802577714008582857232681547010804645280542012946831280611286601041432898910932635495572541100328489088596413512269495119984587773095385322842946719005857215213204669338157371785577268571015786502138214350716518190900852654329915375595176473012741029965653285502363681239844207787351298473228885142074217994564816426959196058998736316346539056564943243699673898491386392307932616310644828472142108412305659354882267576253677058172351884999257074171903,",
"        \"F\": 5809605995369958062791915965639201402176612226902900533702900882779736177890990861472094774477339581147373410185646378328043729800750470098210924487866935059164371588168047540943981644516632755067501626434556398193186628990071248660819361205119793693985433297036118232914410171876807536457391277857011849897410207519105333355801121109356897459426271845471397952675959440793493071628394122780510124618488232602464649876850458861245784240929258426287699705312584509625419513463605155428017165714465363094021609290561084025893662561222573202082865797821865270991145082200656978177192827024538990239969175546190770645685893438011714430426409338676314743571154537142031573004276428701433036381801705308659830751190352946025482059931306571004727362479688415574702596946457770284148435989129632853918392117997472632693078113129886487399347796982772784615865232621289656944284216824611318709764535152507354116344703769998514148343807,",
"        \"I\": { \"group\": \"RFC3526ModPGroup3072\" }",
"      },",
"      \"GEC\": {",
"        \"G\": {",
"          \"x\": 26247035095799689268623156744566981891852923491109213387815615900925518854738050089022388053975719786650872476732087,",
"          \"y\": 8325710961489029985546751289520108179287853048861315594709205902480503199884419224438643760392947333078086511627871",
"        },",
"        \"H\": {",
"          \"x\": 5427950439230643641568112351227818269225873132358842532633260751102855998664079603831673989993167653138123054866274,",
"          \"y\": 39072256125563391001665270841814862420408946252854088958346336094022540790884942166501677395226122625404148590399819",
"        },",
"        \"N\": 39402006196394479212279040100143613805079739270465446667946905279627659399113263569398956308152294913554433653942643,",
"        \"F\": 5809605995369958062791915965639201402176612226902900533702900882779736177890990861472094774477339581147373410185646378328043729800750470098210924487866935059164371588168047540943981644516632755067501626434556398193186628990071248660819361205119793693985433297036118232914410171876807536457391277857011849897410207519105333355801121109356897459426271845471397952675959440793493071628394122780510124618488232602464649876850458861245784240929258426287699705312584509625419513463605155428017165714465363094021609290561084025893662561222573202082865797821865270991145082200656978177192827024538990239969175546190770645685893438011714430426409338676314743571154537142031573004276428701433036381801705308659830751190352946025482059931306571004727362479688415574702596946457770284148435989129632853918392117997472632693078113129886487399347796982772784615865232621289656944284216824611318709764535152507354116344703769998514148343807,",
"        \"I\": { \"group\": \"P-384\" }",
"      }",
"    }",
"  }"]

/-- testdata/P384rp.json -/
def recFile384 : List String := "{" :: (recLinesCt384 ++ recLinesLo384 ++ recLinesHi384 ++ recLinesVote384 ++ ["}"])

end MscPoc
