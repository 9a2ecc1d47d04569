import Verif.Lemmas.Poly
import Verif.Model.Echo22Table

/-!
Certificates for the radial polynomials of `echo22.py`: the exact least-squares solutions, the composed polynomials and their
bounds on cells.
-/

namespace Verif.Lemmas.Echo22
open Verif.Lemmas.Poly Verif.Model.Echo22

/-- Coefficients `A i * a ^ i / (B * b)`. -/
def coefs (a b B : Int) : List Int → Nat → List ℚ
  | [], _ => []
  | c :: A, i => (c * a ^ i : ℚ) / (B * b) :: coefs a b B A (i + 1)

def evZ : List Int → Int → Int
  | [], _ => 0
  | a :: p, x => a + x * evZ p x

def PA : List Int := [

  6411406536072039693134271326942050805259641966800516203295487028910681427299716151921842258712086646207354821268603130602127093153840173248552534202965302846225046121653984768897277088977521773183312589938981830106518503394194717407697559187433404695609319896080,
  15299388187628792486631112692372708066261143196301005760008707140323423815920561684230399368158988689975897119676185021896347102533563051232587192285450219728801513734804601386214349934045180527355431083514312760691067772249344580184980555740998737152830456902,
  -111688931850307948893075833276345315244728786722381298934681244655801610488513139275709191381177796183334972311556665594262290570007987642193073434375143969027876280211424162310145932683858298837429155462890839593388991493838356856705286221905445,
  255840176304870750130820705101042578689888076546289958227683428998874758949910405446132132330840175123685746909449804175756965652380359883482519437161873566952926509797161615351376114682866190493667747854758930598058601684554611012496191615,
  -2060712537116633446177615623370565700288030575747159402671570825366387653001034774773101010191767486391307968891085639994835548969971883553519271244033825893592305650010140417040799005790505155645559433714724142080006363752313695,
  3765393432589477054106439012846973671439395373577645801682268886700105355045041695605224862713324418863219740437339479354709321096395631802968074585423134776997689376013806966262586500763923268802119980335398997743574663]
def PB : Int := 62954221497639915123651468988570307161785448894494692166812010032770760746823027137293044599306599817905411361771117441380516030632776363252524354012501476479350499977316724097761001091556495450037380152029420561894713692399195550562403777771145927277490038614306640
def QA : List Int := [
  93672670075173993101449260, 209114217491530995101467687806, 293285070649111212761815, -61923827798826312238435,
  13555407636784253425, 14792412900109229]
def QB : Int := 50822675793536557928160

/-- The rows that are used. -/
def rows : List (Int × Int) := table.filter fun r => decide (r.1 ≤ 415)

/-- Radius as a function of the angle. -/
def P : List ℚ := coefs 1000000000 1 PB PA 0
/-- Angle as a function of radius / 415. -/
def Q : List ℚ := coefs 415 1000000000 QB QA 0
def K : List ℚ := add (comp P Q) [0, -415]

def moment (A : List Int) (B : Int) (l : List (Int × Int)) (i : Nat) : Int :=
  (l.map fun r => (evZ A r.1 - r.2 * B) * r.1 ^ i).sum

def KD : Int := 133391653372511185361775199968177503177708198849703619015431109746309591238496277767046235765674827180602361672891441250020042905231390638790217479706005591190318876560600620205657101766502083429640499806103127989227269395921914899623709312085711157699090203374675545343344236324918860784553919209291228451134220592508896824758837060120191068740376745292853904670720
def KI : List Int := [
  73334277727709490065773106387085559195101406142745045605437996617705075606894615993012507464772526182366152888592276929790634887030872281662787019524587024595748083779026618960464724238557261404949807726105483715184313217361080852917951651082991110910429417664544767031731440404187015807215475104914128333125636352019224823820539917292824457257067302401850629120,
  -3155873116071377525054597518789005614249615550239750734538373140370990865922059349492086062924520915283998289789569099542798282722153368387376028017038506686955294896475705533776276745455359508695097103234844499952632894751565429474223807955176052346832833082172484572375428408735748320580290682586822612837426013825219913083392081189846685752730418055512670322176,
  31537305524662910302644337444559174283549640519715820921073218397592867275986229527687478529206100078887772026477178172769258342985807935469286617782654287638425755684120544921441646915063278072536579499285785271235194799387240311366183668210810892441647959287180343031973022284721265846415039505540053542131818343165271999200206157193960512830316313169556022938880,
  -124125367784901070305359961835056101066297480478187221645077993497322282845997118170090757773399504589785599196379935105321474560449510371350123764652508357570267514596742253085257979926242828705772638031658305956323323197588719280970483627628756097670276943368814041594401538413023378089889268250403565886079842237733770468316423686527884542682114944870334720248320,
  224125336072781964729666248612376137278047183113950370794622030066089646798036878044360080315711855503834823262711522113698864047625634382094914386588778993924690625259632616538087740155937574684703364962160904021384534934940584496708812846090494113203842826516639489358260476156131680549096842343025153232155440775891425517466015225287795193194506832706385164519360,
  -181064455464582556156567354151704856162690000639566380382306529509787469939241573883730833204492126317707781112521167681325937836432583336983020395051347514485899874784119674165027728809583845147701145486483250961645549907719958669443414117504568871304489649672288103822794392620745113649961324965299248835401498609863378670531369509553260990081629081780923793867424,
  44937845988061305070886698489090140868494870923233378730686464537054658175038158214164557089430968318848591995330170358580086678087254868967425273171706797430103813758968303217937666964438631297554144974075423649695694215909597495250138166033645647683820324891467072601749722892645271817375798600161434532521798249553472879579549038096105212134322390512832556358000,
  7884118780205235618139317705433563174645505707398547571041691238918176212188119424965115529810980154283940136626624826868996324866654610547919942698552790916585273782342568856185285105268808478357538991770200316939242516774135197612588472407197250037236776354041396122005282047775998180368845514538403320881013309840125883596107289541693714823735971122765831120000,
  -2071967432441490668141181255328204667771415464384245496144705092462638738367048202864834037332851283179643117689612019202699089435230672358654843528367779392891539658440877634930230147964584009822853343848202420408641076580756325096718568211556961133986745652786672630429182186378184759872020272638230299980336827949205837978038158824689580776295733778656468087500,
  2418472603483082123291775668726102193200424895381267671950450327316296331371895175088070693720502966326519213105235930032364024812750788981353384943476810900926175535653125853612864206038600910758619814383731440517912888731603746593816281732826778651448503505344203671344809749989330013301323285464189064226355072520608762950603398887294439149189150238794442856250,
  -222458369456749538842908494602993413460688021725661640171361355214176823136601279113167846174097374682946671696807039985163710825357377084740925185723031965916028148042670417760948148472075113203662041367081013736666133426785504052824107843307466247566438775544610726981090859745920124957362185205324263990691962322631296188113735940998894359335958944754309453125,
  -316175808560883999438993990680282930359388587533538360098827324623798105197446443815566637253448489921808087922516906726072931592301154351309109887384236261189024719628675984068340527052045324975612635160294248144885508719768736900277868489166808858319140775084171816579971286512657766198913945228505340636530073312553607076186868491884389058667417293037122265625,
  52898656419135857670586960934546799369776842904664957077229811049373462856579820309727650099936513940551540902791148022747151373061124360375704682778511728257241483834174493218389135384627970908171593391464244884397488296023031425621254237854860298468446384369113499928456108774098706906919561674940605229216269669438643383066568005136546988612783163255248046875,
  23325721599750945385408235259719211029246467630357911226539522360098812212537809267824495357427410730924629095546322506148450786060854928080619767648951211264045940788771358903719083256257423965222354765341598764427947598780447249137724898956751558667253599848553541713171635429779945122177945695153914179638655098874727159640247761209470863230946640233529296875,
  -4450645350019612318562125351325251637693043894937128588632307051868816369515734475510060722180597196359749910796731155990789436775051229087844435533020787027663388129609121503179702188832678795468023050366211760028515490365066243302387690500419510281098836776830550261188767537312518936776948639917856915030947192370456521768486581875994337763436427690478515625,
  -1113646183253767942711238616126576646414997902158400336929661401826577685301512856208805866878251633450938636123021639043648946229558717241606611203449132479425728480942495899477758154786070919576961241060346062292264053186279364992843693967455446452183609794913487363101209800105040584908574073248104791727724503335804979558469699225836165582074659973876953125,
  249074436665617061536334101326413481234008304768953369758559020619208981215514811552875835664484104807698792147347967382212747815613239093224136622425284537918781861854362290814028674586679378759768070955445391598613316478138574741825431525522642462121112841442029656567355280303474048015130275705605937283025679832996807522008286859771671872909715023193359375,
  40321712401246408350772269273145603330181365959916839332366312693961260468609460514249154092616141431503287873359175260879123420588835488029733461638726845209739757935733066422412807241483721430404555205563942111156212084110392100061645008761709666989832132604809435947187926741962192695488163133310952178832691337078438814115706048991786475524511551513671875,
  -9357659260977910192684870856573015856994846962571623119851009554969458999379152423004095726165300558242380880876809684273018896451176109566270882960869128957686508317779114434455968246391410735618317274030671672380114224935410890072145607175392223469542288898812480348443996093840628158776044876788906047472687272870855500405915956777498910464897796630859375,
  -1056126268265279686770770968771848005972370507575427771044655040779201327717352358571992189828334252019557579353893734675369901757986724519861406883491285409194109186584298815214218160515984337935062982536737067862165477878837626631647252461156265648769497051544267464838501156380364727872282938312782420988696044120897959776943717760188582578729705810546875,
  257906225397417079883694904215035079727277294573339247844420857324642174488418112778792254524459933149843003505764962406028835170872015948843387747855403224695806672326445061483431476571849279421993114566004334702997107646373467229167145110990315894045842526136266813015160858630560207569409315792762823843672076332219502688824632388307383673581695556640625,
  22922427815493381183289094708671370303050086858603269912450378745056707359571550810210469541991477541528027969631406565081669455943398379556210929303495921729583416855573666116682939519254160230178025801107718797261200315672150332424249016878417730181917078400656696978793470465059267544780281586160843814625113125692862144153330149822497720444488525390625,
  -4542301248574196827631905216466121606308205460450514414113191660057419483169941241622167440201500883242986217006819086308638981209009496857232968553792199327769976467406844561090966528600850057912252394629780459257199609262941203374604033376205438227079861127660950993754662642887707771416465924091576801969702560861534982741559400697517723674774169921875,
  -342767905588105269518084011023935386930793822491167412948216640888600102209981960934120353132131528664698142824915079686047492009245604423147520741362482604742817212447899637188480083611584337742021759690164481353904800035554436484694135306373421812204547632984459393139518844622831532530885399532794129412489279393275203356817053127200243282318115234375,
  52001936376285322118582778754467806478822091779604816157254391991342567882405433746452227206278059909851483032553214480870234150318647444877268807820127343480413954922585496452070212326961496931435528500649046866399748356234397773944906829381170175053018714337742473746488602841567923094930550214576133820353720684320300724432983255792639255523681640625,
  4710034047877126974749118664346199162059720575533994984637361411906955431210127515165161397024495442898434050070898298625092895815131005704494986857533461432501921599880996117857346295681078860890597608465883002203801213451924340292472741388515017659631708471797984493036889700044912072526484453241229041816963129380432221391240240160083675384521484375]
def PDD : Int := 786927768720498939045643362357128839522318111181183652085150125409634509335287839216163057491332497723817642022138968017256450382909704540656554425156268455991881249716459051222012513644456193125467251900367757023683921154989944382030047222139324090968625482678833
def PDI : List Int := [
  191242352345359906082888908654658850828264289953762572000108839254042797699007021052879992101987358624698713995952312773704338781669538140407339903568127746610018921685057517327679374175564756591942888543928909508638347153116807252312256946762484214410380711275000000,
  -2792223296257698722326895831908632881118219668059532473367031116395040262212828481892729784529444904583374307788916639856557264250199691054826835859378599225696907005285604057753648317096457470935728886572270989834724787345958921417632155547636125000000000000000,
  9594006611432653129905776441289096700870802870485873433538128587457803460621640204229954962406506567138215509104367656590886211964263495630594478893570258760734744117393560575676604300607482143512540544553459897427197563170797912968607185562500000000000000000000000,
  -103035626855831672308880781168528285014401528787357970133578541268319382650051738738655050509588374319565398444554281999741777448498594177675963562201691294679615282500507020852039950289525257782277971685736207104000318187615684750000000000000000000000000000000000,
  235337089536842315881652438302935854464962210848602862605141805418756584690315105975326553919582776178951233777333717459669332568524726987685504661588945923562355586000862935391411656297745204300132498770962437358973416437500000000000000000000000000000000000000000]
def QDD : Int := 122464279020570019104000000000
def QDI : List Int := [
  209114217491530995101467687806,
  243426608638762306592306450,
  -31994493727958584875793403625,
  3875402933206978956560237500,
  2193822124306014765451590625]

set_option maxRecDepth 100000

theorem P_normal : ∀ i : Fin 6, moment PA PB (rows.map Prod.swap) i = 0 := by decide +kernel
theorem Q_normal : ∀ i : Fin 6, moment QA QB rows i = 0 := by decide +kernel

theorem K_eq : (KI ++ List.replicate 5 0).map (fun m : Int => (m : ℚ)) = K.map (· * (KD : ℚ)) := by decide +kernel
theorem PD_eq : (PDI ++ List.replicate 1 0).map (fun m : Int => (m : ℚ)) = (deriv P).map (· * (PDD : ℚ)) := by decide +kernel
theorem QD_eq : (QDI ++ List.replicate 1 0).map (fun m : Int => (m : ℚ)) = (deriv Q).map (· * (QDD : ℚ)) := by decide +kernel

theorem K_bound : checkCells KI 64 (-(KD * 69 / 100000)) (KD * 69 / 100000) 32 = true := by decide +kernel
theorem PD_bound : checkCells PDI 20 (PDD * 242) (PDD * 300) 17 = true := by decide +kernel
theorem QD_bound : checkCells QDI 20 QDD (QDD * 2) 10 = true := by decide +kernel

/-- Agreement with the table: 0.0007 mm, and 2.5e-6 degrees. -/
theorem P_table : ∀ r ∈ rows, |evZ PA r.2 - r.1 * PB| * 100000 ≤ 69 * PB := by decide +kernel
theorem Q_table : ∀ r ∈ rows, |evZ QA r.1 - r.2 * QB| * 400000 ≤ QB * 1000000000 := by decide +kernel

end Verif.Lemmas.Echo22
