import Verif.Props.Gadgets.Alias

set_option linter.unusedSectionVars false

/-! # C57: a concrete case over the BLS12-381 scalar field

A 4-ary tree of depth 128 has `4 ^ 128` positions, more than the field has elements (and the code allows depths up to `4 * MODBYTES = 192`).  Value 5 is written to index 0; it can be proved that the
leaf at index 0 is 0. -/

namespace Bp

section lists
variable {F : Type} [Field F]

/-- Contents with one written position. -/
def single (x : F) : ℕ → F := fun i => if i = 0 then x else 0

theorem sub_zero_contents (n k : ℕ) : subContents (fun _ => (0 : F)) n k = fun _ => 0 := rfl

theorem sub_single_zero (x : F) (n : ℕ) : subContents (single x) n 0 = single x := by
  funext i; simp [subContents]

theorem sub_single_succ (x : F) {n : ℕ} (hn : 0 < n) (k : ℕ) : subContents (single x) n (k + 1) = fun _ => 0 := by
  funext i
  have : (k + 1) * n + i ≠ 0 := by
    have := Nat.mul_pos (Nat.succ_pos k) hn
    rw [Nat.succ_eq_add_one] at this
    omega
  simp only [subContents, single, if_neg this]

theorem rootOf_zero_succ (H : List F → F) (A d : ℕ) : rootOf H A (d + 1) (fun _ => 0) = H (List.replicate A (rootOf H A d fun _ => 0)) := by
  rw [rootOf]
  simp only [sub_zero_contents]
  congr 1
  simp

theorem kids_single (H : List F → F) (A d : ℕ) (x : F) :
    ((List.range (A + 1)).map fun k => rootOf H (A + 1) d (subContents (single x) ((A + 1) ^ d) k)) = rootOf H (A + 1) d (single x) :: List.replicate A (rootOf H (A + 1) d fun _ => 0) := by
  rw [List.range_succ_eq_map, List.map_cons, sub_single_zero, List.map_map]
  congr 1
  rw [List.map_congr_left (g := fun _ => rootOf H (A + 1) d fun _ => 0)]
  · simp
  · intro k _
    simp only [Function.comp, sub_single_succ x (Nat.pow_pos (Nat.succ_pos A) : 0 < (A + 1) ^ d)]

theorem rootOf_single_succ (H : List F → F) (A d : ℕ) (x : F) :
    rootOf H (A + 1) (d + 1) (single x) = H (rootOf H (A + 1) d (single x) :: List.replicate A (rootOf H (A + 1) d fun _ => 0)) := by
  rw [rootOf, kids_single]

theorem childLists_zero (H : List F → F) (A : ℕ) : ∀ d, ∀ l ∈ childLists H A d (fun _ => 0), ∃ j < d, l = List.replicate A (rootOf H A j fun _ => 0)
  | 0, l, h => by simp [childLists] at h
  | d + 1, l, h => by
    rw [childLists] at h
    simp only [sub_zero_contents] at h
    rcases List.mem_cons.mp h with rfl | h
    · exact ⟨d, by omega, by simp⟩
    · obtain ⟨k, -, h⟩ := List.mem_flatMap.mp h
      obtain ⟨j, hj, e⟩ := childLists_zero H A d l h
      exact ⟨j, by omega, e⟩

theorem childLists_single (H : List F → F) (A : ℕ) (x : F) : ∀ d, ∀ l ∈ childLists H (A + 1) d (single x), ∃ j < d, l = List.replicate (A + 1) (rootOf H (A + 1) j fun _ => 0) ∨
    l = rootOf H (A + 1) j (single x) :: List.replicate A (rootOf H (A + 1) j fun _ => 0)
  | 0, l, h => by simp [childLists] at h
  | d + 1, l, h => by
    rw [childLists, kids_single] at h
    rcases List.mem_cons.mp h with rfl | h
    · exact ⟨d, by omega, .inr rfl⟩
    · obtain ⟨k, -, h⟩ := List.mem_flatMap.mp h
      cases k with
      | zero =>
        rw [sub_single_zero] at h
        obtain ⟨j, hj, e⟩ := childLists_single H A x d l h
        exact ⟨j, by omega, e⟩
      | succ k =>
        rw [sub_single_succ x (Nat.pow_pos (Nat.succ_pos A))] at h
        obtain ⟨j, hj, e⟩ := childLists_zero H (A + 1) d l h
        exact ⟨j, by omega, .inl e⟩

/-- No collision on the way to a tree with one written leaf, if the roots of the empty trees and of the trees with this leaf are all different. -/
theorem noCollision_single (H : List F → F) (A : ℕ) (x : F) (d : ℕ) (E W : List F) (hE : ∀ j < d + 1, E[j]? = some (rootOf H (A + 1) j fun _ => 0))
    (hW : ∀ j < d + 1, W[j]? = some (rootOf H (A + 1) j (single x))) (hlE : E.length = d + 1) (hlW : W.length = d + 1) (hn : (E.tail ++ W.tail).Nodup) (S : List (List F))
    (hS : ∀ l ∈ S, l ∈ childLists H (A + 1) d (fun _ => 0) ∨ l ∈ childLists H (A + 1) d (single x)) : NoCollision H S := by
  obtain ⟨nE, nW, nd⟩ := List.nodup_append.mp hn
  have form : ∀ l ∈ S, ∃ j < d, (l = List.replicate (A + 1) (rootOf H (A + 1) j fun _ => 0) ∧ E.tail[j]? = some (H l)) ∨
      (l = rootOf H (A + 1) j (single x) :: List.replicate A (rootOf H (A + 1) j fun _ => 0) ∧ W.tail[j]? = some (H l)) := by
    intro l hl
    have key : ∃ j < d, l = List.replicate (A + 1) (rootOf H (A + 1) j fun _ => 0) ∨ l = rootOf H (A + 1) j (single x) :: List.replicate A (rootOf H (A + 1) j fun _ => 0) := by
      rcases hS l hl with h | h
      · obtain ⟨j, hj, e⟩ := childLists_zero H (A + 1) d l h
        exact ⟨j, hj, .inl e⟩
      · exact childLists_single H A x d l h
    obtain ⟨j, hj, h⟩ := key
    refine ⟨j, hj, h.imp (fun e => ⟨e, ?_⟩) (fun e => ⟨e, ?_⟩)⟩
    · rw [List.getElem?_tail, hE (j + 1) (by omega), rootOf_zero_succ, e]
    · rw [List.getElem?_tail, hW (j + 1) (by omega), rootOf_single_succ, e]
  intro a ha b hb hab
  obtain ⟨i, hi, h1⟩ := form a ha
  obtain ⟨j, hj, h2⟩ := form b hb
  rcases h1 with ⟨h1, g1⟩ | ⟨h1, g1⟩ <;> rcases h2 with ⟨h2, g2⟩ | ⟨h2, g2⟩
  · rw [hab, ← g2] at g1
    have := (List.getElem?_inj (by simp [hlE]; omega) nE).mp g1
    rw [h1, h2, this]
  · exact absurd (hab ▸ rfl) (nd (H a) (List.mem_of_getElem? g1) (H b) (List.mem_of_getElem? g2))
  · exact absurd (hab ▸ rfl) (nd (H b) (List.mem_of_getElem? g2) (H a) (List.mem_of_getElem? g1))
  · rw [hab, ← g2] at g1
    have := (List.getElem?_inj (by simp [hlW]; omega) nW).mp g1
    rw [h1, h2, this]

end lists

/-- The roots of the empty trees of depth 0, 1, .. -/
def emptyRoots : List ℕ := [
  0, 5231442632555753686560,
  47361459815331465010585920201771148356484591736132171611416537606665255786144, 10334030515178661704449518193783883767928241326360110228197302235877142020690,
  46274442938504810913815124370012511179134753152556380077338587190974064897296, 36946069098163043008568655340547709734746257307996816049074955479496261616649,
  45901410607490665584195316675543869397483443969092184201394564545591587535736, 22904173187985055694364479500732294372478774841933630643378798234399957157727,
  40222876015559251997560431699664282813694926343404682591773406411437665672042, 17419003853706858109153143177317161543904367526864872243502565014234679494399,
  39021286211924973451346576557496726167285918199167146730723267102611122858300, 6174044965234180216205717517674302888384035978912496929699622816537494127323,
  35745998893660563266834815158665694731232407070151076241207036617664384742397, 49634280505169704342147558394159639982056222258049307497602039403451216302984,
  39519232961711665869388833246239699930734608448253384817639674708629215395191, 21298017600982043062204295136965347742590691342559671795583422674600295113415,
  15015297207773606621866374870116328325778512213466736250287195758393851860753, 3999856668149918160064934517116452036304140995894117888384367263417638279197,
  10339337086907278254636440661040132186983422942490645367909270614825320925495, 47027307934975467897843035964330227255158995450770034127842524234339842177629,
  1527336172599841145959501118181600494534313148242139175710485498365656053660, 26593910125677507072045966265768285708496897657331084706710040265172491926767,
  20249145246674052097469000572121600819234303319766654071462200219017561909885, 31644007587611983333870848476709411866065244945888369222360107372565396248641,
  28576782183433514104134537747560226161494904586252391245520428251542210412580, 27916739481852509261605227874912434480557142375852476021196533047062717794209,
  14303277198151521501461564399735507384936466713692327765832982486504796791176, 31655149047723022061392993130870128741711992748123698208671664171523677027876,
  49771424058199200282875795757068381647437593279233245192925028191428297095010, 24503146915865978851855310666926103786233345448948478091395654510574301158598,
  17858811703558632336821039414610000508534388983666222505523193567883388374245, 28551444294638331097871630650666593208580416350303118708940370962780572688890,
  21580133545178904341004740619284026068518792735973586629585534586135697152467, 44850352039445529592146879152860555240726768238886655118970973153276819917067,
  22064029843022781503380084676185970363130959369180313554638227951211131088181, 23665084584333543033277032460227058884717159018510965293714806102522511222721,
  22165238550921341439543933606352576591114830849709918528505643250231204665596, 33348759229260002040514681037564507067205235952420044009883376883057759034466,
  20662187240869592647031905059026686056721384620634972826741342569596080586439, 35544223307618804927191732656384031499394397755090066556409266822102902576646,
  19879240869018208649596271604647806889179724383804925357124808095096777177093, 40587813368972020644697267553706554970677374775168151112975363236753041989608,
  31353547678622295681268216097668875739625719933725724971405716643698939472154, 6499024580843525491831401943085125630154741249777533450568994910633567338082,
  51466601560098682739433661770550195541305309670044736663319938769171700743674, 4169907180125619015536129539791206365706815538052443052001986409997464215902,
  12472771962697037004964748054549867698507152183931270513522763512389787189758, 51635219269944322471799602680764251838832297760732549517666813540555065595883,
  43023970287896294428063470286155432012765328763116772094627128029854990573238, 24064584413564395368371651407308686482366420043561221604011938471417793067687,
  8918822415293536076006541479568187469718962035827864609774124314758946978360, 51943573549644077386285213915812865164439087831075577542705470629671425708002,
  12476889962915972382299604082955487568716562157176193975018167731464888943678, 6504336607882219999886729373107409177985176371652044922009886162667397329916,
  19217605944074145787696580159113919399274638735330488187508264761639977518281, 32886196737185840709474859647123162881164302782568481299361128321668574385918,
  10652791709727466689215618640123367502998604875351109456933354853566749712051, 20854270676093266698722692550811082861904810795391429449076112525857448422840,
  29048748202642656149567993274743938173461957216643662271239501535664272771774, 46693247023978351682064723252917909887525251821497327981018341900435842728903,
  39196452919276364712143538480760578473028589334121588646516599114951817526002, 32154887203936048855021131808077871627958855899712889970622817391248161647092,
  7259348676608676790732482488519378259925928852384649844240431919617003548691, 46285530399274424849967245765700841391462283189618573181323244701722376377407,
  23802783071611638147650685831320665254265369388664209894413886078482479299585, 14395713441008951799400387344168272919168566739168555193112318020218227195639,
  36627410941236156037138470684837337369031188054379050462427653930780586435348, 29494146661005569038203990475071918732188369247026481976205644340151342529838,
  20889474005984338151274546681574497284062335113418146147441824088540688519199, 17543880695974603063083416264710552449830554349875510259724798016804472085047,
  1571651180660241642376577317688427584426100893215250741785424781216923149014, 4213772732216100379393684315727711468970642616475695460746828018288335082225,
  24834663187979652484502349324050746348672464873539721121157606080254709478393, 390946601381506612563814578273416507126735098369507212819921979026096173156,
  37356134362109073131718620447655968373942404021672843837814751229226590624117, 45739983792180551605756884679028546492743055558557858891181523373650296872302,
  36451129341940721460590630411792539948118456529100957472607431823265801577677, 20338974365453697661028298062616076832065677896583386618068096522167166097637,
  19488901442155170832536472981506231014791771896893977137725416014191968516361, 51511167341747347086846514730239439236738597599195481779648622291183173678122,
  41536090226150426141625616922488530557795721207016313254339420872544191668098, 40484462341005818019051534485102019136673979901717245137857701256684161506849,
  6298858816522377915704396841499634143618613106289665551864441855310649075876, 12344640041167856987963259227750706369667419151609670200787395551852030619843,
  15533678336489989130325650080266670038002648013475702006149730719986785921565, 39961142000628564221667517641696825294227931842817079170109041358183672830390,
  14783130721687347244814000253335850119903203602824133946285141774927596576547, 12529290765597683026421897436721956551274619577713093335052300806114534741886,
  9152693415232715095407013732831028827124163700080260841664512322083885619727, 11198988131650027746369752873206407200103917952631303180258998784867874420478,
  6508964614969844071258542437352273053520628298761396117413654446255291446221, 48436124237167986086032682218343028645869378664554310305847061391050778820270,
  34489757615154696798347418550789101371786497487424574074680324611783983906651, 42283676002450951003092822282761755628851489757181167959644752364402779052504,
  43280372002762373433497427342411641124053611401119527863352926235774977840672, 34298253034564739932885394080552241501204792039672874514724357810981727916963,
  8537731722536811895421090572294974262668876622558597914271290669964889288868, 18105750400484197344522574809916387261763901013013057274619925837177736600257,
  29270538391374102371015924251905204908378915955516891278277779304276222042322, 15457781024270992062157646471412446421585447521334871480878178073187465972178,
  30116275982382234272558935607711296108409268556961873192236766517574422593611, 49021019647628019719648160297901296818723307409557993205317468037052580708125,
  31427622024653407145911550215685841203351969045672050882467378519882472303814, 5723461666014336094806628922802927858310254545934655472498740983900046308589,
  50851472644260228139945446595365169930550872076020830440798875019806400152653, 28776615188565826400412179366399424698770446051890648955441215242702592578952,
  14652969197817080525618160468535076681438646544201595196682186855673970112898, 25051927113769102930246688472445643046672321893219856865086892781951135301907,
  47347683025113358760219632341279429811572767830479901187407758506493656291158, 38047601770707996852035906174473603248494811988395232686346692514854647003038,
  12515368667479831441423964884397315350829897040165632218804214017079527288604, 16385070669886716094583028233373256025741893564241686725678389961961346502999,
  642366867230115787096891984525506040818824760385250809314803562816934281872, 44611897282387534014845240537430717911857102688425715741274964397318316197407,
  6151802499765924685597288147506287224181986333768153750881017391297488697129, 15959913753283473384914767567565077098892565732137456466477697548895409336013,
  44558153276355057084080039187758579291316971965308237500997922355187754660098, 11738581196599339412250016162550636704941304451380652655411847975585539778690,
  48623956854660326275508110790695044713519115039179249632356482045111033830760, 26593303062702549834181396910067590560288578271051938276980961070577240394303,
  44358061017262520369508029240183219033351552665612338235230520437167116528190, 46932568427416177217670858438478616984500467663534007062871100095740781132429,
  16144867441368504797559670876138104100896976814117622654633369677225942624882, 22431241308649741783396226079881218259793087394567024287682953458697867777022,
  11630202213072616625468547504522449903165785774395514378452062579631319982716, 22555542606188997251406994657386167290645963936559843333006707921759112919084,
  9174286292509128185214987882577055303353944552835276023987324238056775942862, 2703615328812345735513343539303429585640302745916404554910473631890811671446,
  6536340292233052840986728523634113449337152977885258060259359790040322761557]

/-- The roots of the trees of depth 0, 1, .. with the value 5 at position 0. -/
def fiveRoots : List ℕ := [
  5, 542620885940051104585184185,
  15958007196539998750320192023312477003608727419336975990213131984781275373964, 50663627539964778474029276630294031774396156301890131352782105872228606717938,
  31265883214111672728744686497321068914128666630797496640363493616246945060123, 32565408585703430228575918292815861541629230764241905322856138802894114838174,
  25225539945845305054655986564839990271416754065473033562968464725748612963523, 51932123752593039247123839102379953788463326018620866032235082580176488315530,
  34404076752109515862607873428467315231940565601656698687433748147207549820041, 15995139890517272302477432229992549633883476086132419065336166565428152663368,
  20457406373021108665954971231182583791089913868911122484388501977628211772214, 23549551825322796355098645966136201141292072006474556667326234880844922672300,
  30657023349241802500121502045316668357951762157324126400602483973559424940847, 8230671137258945229540392058072270603851852113971671730067043339734716864332,
  13180080492801205023323560713714936919324598283486341371720956649126517883472, 48678547531557679996218153847754354280606519003468739050258438629284149903279,
  28834275611267260418713764553389155750678011906822876379462138337194790982318, 47804018329557449803349372364691880517639989126828253953040818467833104285299,
  14882655478044087181799751745425568531230814803147416307802789335143000200136, 45326969950704047637071723070294423539585683155863901890167560261829231636112,
  45740465894370640977437390465672667900107981807646751641139646637941840806358, 6763670178508585399114628577245454026211310964982568039391785652357561197305,
  10757018989138996875259038530190163125186544699074834783003885973223940059503, 7577890832985601827138409661876773355047496919760562316734869877034604298386,
  21904487947099412385972945367602755452621473039233435002071145659130412308652, 498546377689910886012884123100589824774033827327788660652019054427111959267,
  38469802009134092410972146643904906700030032861724521921889911112362665658379, 5800475853983440296202114238946667840538570592668725944827705560333895120383,
  43664495677874456696264811827898496791052061428469275414133113801030565957654, 49035078175299049648110126893714392551448057906620472840262636285066862626793,
  37179760809738427786344483050612508265026565027440325321051499566760005787705, 35401498528111342523292164807997587050579917846362552055949759169668504714149,
  26160668930716277951792159662279483994925765787483389899566223734649024034384, 17797125177190502715472345014711840625042600718588787178310082877095905649530,
  51807497197613312317524571036149132878406380330916441325544252002128047681171, 41436724103051051755405869028414944392993578257883006139922554565893703619263,
  35680610836955186647620219405085319134614459715530497361144850211326725576263, 29493178194866937147954814152850757652105572371974967934481917491191479991359,
  20293689546957657753657751961557416655544102380071677599179389790507338842130, 2473439017460324826003939243804817281473801520725085749958828143537874250221,
  31307170358107156752631454978416332434196111009918927864136868628600052347635, 32600759991407065243598526308138806925143486733865520207276201730915107609794,
  43415622112763974556473675328930851487524105256039334123010597205557868469604, 20782810033072774242597025804449343830760226442460515196331922406952050296476,
  17671259891346075411007627865554945742121005416100172637527722277375273112018, 27649559437065730690449458928642021694600793697600947402173672506041185074342,
  26102422093449970302208560323252723500019075166129320227950884595032844538903, 7395510706217942334057745068558053714853957397518383241074548924609896013249,
  354176308151777216901668690503124441255965876696255319210093994353014495343, 6483177558068140790541230196295204707206232194033432923895017358816644012695,
  4722842647653604937003988983870671233661196985657160747770852516841847702832, 11333538375623097306477618579641126910068058477461325002103027155692140683141,
  23561258943135295839949247194499000413478690726812189539501369630772870748587, 49578774642763310112283137324065716538551423150662040626637596304224164386892,
  33676696242535341755054400575204885317594054129184499838416072297579662891346, 24131093605818672565747844957765768097894409732746304443079452611299886266650,
  22376641083770383868221295639389262426863426428871840071926585035823917157207, 43906992551471440331545654141478822774433489440848963498685169481638178142816,
  26512956491565152578431499198660181647400543434221672684976197291781653139951, 36140050403720722319991777115253891543504925173293847084856150968709737139808,
  44492926345763250744614320568324640811781515845183539972451917560108401289455, 46710185745568525135828939968632905689411155350318124628378191051632319121194,
  27504446491530468639794125268583388725413523379254885138073010923944443167209, 3648792586145439264482725750094516765631523515319783347094651196365071667132,
  18438966592877001364132705199747225180044504202795529032353437425915161046043, 15792754559399404449662808303707163586516444999542211485366008951956706982352,
  4093997356599890302724935042516595985449897080886826540008109993384414392581, 6126541150217603266206770170653184654416645860248855814140704130220987426341,
  3366768885318078060475533928259081799112764074911962273726824812271750376615, 41592579738333661866327694460938477467099914341418483110447265794568548547268,
  33253433051457748319687928696402958977204607499389108320569853301308281749229, 12723848699515570665079029205307648099924571494384659621283281115952961143445,
  24421664324128397130874617421889553010270880944733669734064750322035857361809, 14015314323922632559836176740681636443845456782183678763028068840819091519977,
  31312542870893539943572953869578097877510333991824059564263770202042934449097, 35795152112771368018931867826919120418140032268360606696584247639010612967202,
  15913647291306875514249129912924500511875328684267342308536569873577337398942, 7681569499261334911894259908705696265819969425184122820775189005562850359985,
  37497459660175342351743839901159066464732693538373998148557449478058009097757, 48558996099590484355666438588485701986802310107422703357438025613148014830033,
  46286922656963716826391681552238490516335390767697160041482145872797961231452, 30199863340012743392826639470596948771666864007164529287009582114607497929631,
  52132552674428786200210923425015325514179330962625271517823141222418098444183, 51640108328158307741270965909377829423350549420106809979598953550533636415084,
  47240738585237067537710083078468941558546920057440000250284847910481716450138, 42630263452012276435074858952003757628366986755647196855386136141416838689273,
  2237787444961982128302931577388016510471980940365619060579051127928847716516, 25317848597436635818314335914801198545426684311243618694188181993450707525387,
  22965042496549763741854335548044853848159546492756773044524202744989593476108, 17792709968190588726086335645883069413638906307584296749788012365002938726697,
  45814649863479760953861840794040037617491779778291652386409000967655105176892, 33970467100423225675382069154554436701677482635456809669311429329841854082747,
  2651147053513119126190162199944372570883022820148200972932379680988867561680, 49310726519997731978721751184617489972938547519684986530830338574699143078120,
  12407715686540837862037333063685110944842153838799986928300967830303318984828, 24596695501928177453991661008814891158660690962079300870838138584306866654715,
  27293160615670781505191390724680121108139912253774108986219545271829627450400, 37929656312520087581599440910622507103156111169588197734431411144713236190634,
  1437828983368963900273522637903490997480136116751404357845990053037990491573, 733033447933645776555805889534218952465537582650762627929681367769515006794,
  36642497051900708334055960808842485019109114563754025577951811072553517339488, 42626640351734061899635789538975839958258010507363789773462915912491044333221,
  1191958848170981039345860045174083098190511857399594318377347492215236333625, 11862085487970189192027931824532309221884265869236122989124139758543665517568,
  13507072403397952488250862955569159984010724010445749267409029221929728977510, 6722010954329318093274468813601666262574623488443110049312090526189811111638,
  46994209707285597110300473782979576539229179657518578041219813461679125903134, 25557403878592829310458756467643841268973289321346478665530018193741021806018,
  20688247458223135539679621398469366857806009384312722541383121539029564294277, 1280396451761458576507487303132008974948945960171115412993845059382482448679,
  49479422783841960812375251092661475907209923198324803016151450074146448616929, 6655413503265108206127916176934710032872504071728021421084317981650534004888,
  36822673725740713783472301506794310745879910706414317859781915454776401637955, 25707531732144743605226841740593078295070056962113966085763037698783028137154,
  38021081484408032040748654806606589293775791250683080059146068112010937662770, 992881296744172571922230309460212763384665454635554298040108926841646202791,
  19910650008757217015911326312021732451445063372642025976802251601886271991106, 44084991359179364460259840330053384321560652587619460775659399611706801353898,
  27669434070857950433988837985241449316809048881037933200243651091323165133556, 30096359576420218965911595715489425844035111120625523033943148975274126521887,
  50289065140505419123623605051949579414201327493884233035936047996182986274128, 32525315713229472259310097246245377015795475111577122718327474054449564159832,
  24847024662942352757762315484692724377833575516016445714795383482978801410443, 1221446296520778559803752332589018005256399007878128504554581402367114387000,
  32226938184908899407485686460461680995430261459481938459171053117961390476141, 40212456831246373515201096801598328923561112116702080610391939310364511313164,
  35466425553570289942382756783266483970029562898801342791303485176139460660769, 17115111928770770354752474661545857671570074779159262217117831542344303036035,
  12178908880157695849535857480174481911637189607877647909879335579773595760996]

theorem emptyRoots_step : ∀ j < 128, (((emptyRoots.getD (j + 1) 0 : ℕ) : Fr)) = (tree4 demoParams5).digest (List.replicate 4 ((emptyRoots.getD j 0 : ℕ) : Fr)) := by
  decide +kernel

theorem fiveRoots_step : ∀ j < 128, (((fiveRoots.getD (j + 1) 0 : ℕ) : Fr)) = (tree4 demoParams5).digest (((fiveRoots.getD j 0 : ℕ) : Fr) :: List.replicate 3 ((emptyRoots.getD j 0 : ℕ) : Fr)) := by
  decide +kernel

theorem roots_nodup : (emptyRoots.tail ++ fiveRoots.tail).Nodup ∧ ∀ x ∈ emptyRoots.tail ++ fiveRoots.tail, x < blsOrder := by
  decide +kernel

theorem emptyRoots_root : ∀ j < 129, ((emptyRoots.getD j 0 : ℕ) : Fr) = rootOf (tree4 demoParams5).digest 4 j fun _ => 0
  | 0, _ => by simp [emptyRoots, rootOf]
  | j + 1, h => by rw [emptyRoots_step j (by omega), emptyRoots_root j (by omega), rootOf_zero_succ]

theorem fiveRoots_root : ∀ j < 129, ((fiveRoots.getD j 0 : ℕ) : Fr) = rootOf (tree4 demoParams5).digest 4 j (single 5)
  | 0, _ => by simp [fiveRoots, rootOf, single]
  | j + 1, h => by rw [fiveRoots_step j (by omega), fiveRoots_root j (by omega), emptyRoots_root j (by omega), rootOf_single_succ (tree4 demoParams5).digest 3]

theorem written_single (N : ℕ) (x : Fr) : written N [(0, x)] = single x := by
  funext i
  have : IntRep.rep (0 : Fr) = 0 := by decide +kernel
  by_cases h : i = 0 <;> simp [written, single, this, h, List.find?, eq_comm]

theorem deep_collisionFree : (tree4 demoParams5).CollisionFree 128 [((0 : Fr), (5 : Fr))] := by
  unfold TreeOps.CollisionFree
  have hl : emptyRoots.length = 129 ∧ fiveRoots.length = 129 := by decide +kernel
  refine noCollision_single (tree4 demoParams5).digest 3 (5 : Fr) 128 (List.map (fun n : ℕ => (n : Fr)) emptyRoots) (List.map (fun n : ℕ => (n : Fr)) fiveRoots) ?_ ?_ (by simp [hl]) (by simp [hl]) ?_ _ ?_
  · intro j hj
    have : j < emptyRoots.length := by omega
    rw [← emptyRoots_root j hj, List.getElem?_map, List.getD_eq_getElem?_getD, List.getElem?_eq_getElem this]; rfl
  · intro j hj
    have : j < fiveRoots.length := by omega
    rw [← fiveRoots_root j hj, List.getElem?_map, List.getD_eq_getElem?_getD, List.getElem?_eq_getElem this]; rfl
  · rw [← List.map_tail, ← List.map_tail, ← List.map_append]
    obtain ⟨h1, h2⟩ := roots_nodup
    refine List.Nodup.map_on ?_ h1
    intro a ha b hb e
    have := congrArg IntRep.rep e
    rwa [IntRep.rep_cast a (h2 a ha), IntRep.rep_cast b (h2 b hb)] at this
  · intro l hl
    simp only [historyLists, List.mem_flatMap, List.mem_inits] at hl
    obtain ⟨h', hp, hl⟩ := hl
    rcases List.prefix_cons_iff.mp hp with rfl | ⟨t, rfl, ht⟩
    · exact .inl hl
    · rw [List.prefix_nil.mp ht, written_single] at hl
      exact .inr hl

/-- **C57** fails over the scalar field of BLS12-381: in the 4-ary tree of depth 128 with 5 written to index 0, `get` returns 5, a proof for the value 0 at index 0 is accepted, and the verifier's
statement does not imply that the leaf is what the tree holds. -/
example : ∃ t db, runHistory (tree4 demoParams5) 128 HashDb.new [(0, 5)] = .ok (t, db) ∧ t.get (tree4 demoParams5) 0 none db = .ok (5, none) ∧
    (∃ nodes, EndToEnd demoEnv demoEnv (128 * gates4 demoParams5 .quint) ([(0, 1), (0, 2)] ++ nodes.flatten.mapIdx fun i x => (x, (i : Fr)))
      (forgeInclusion4 demoEnv (IntRep.order Fr + IntRep.rep (0 : Fr)) 0 (some [1, 2]) nodes t.root 128 demoParams5 .quint none fun i => (i : Fr))
      (verifyInclusion4 demoEnv t.root 128 demoParams5 .quint 5 6)) ∧
    ¬ SoundForExactly (2 + 3 * 128) [0] [0] (verifyInclusion4 demoEnv t.root 128 demoParams5 .quint (5 : Fr) 6) (HoldsAt 128 4 [(0, 5)]) := by
  have hT : (tree4 demoParams5).IsTree demoParams5 128 := .inl ⟨rfl, rfl, by decide⟩
  have hi : IntRep.order Fr + IntRep.rep (0 : Fr) < 4 ^ 128 := by decide +kernel
  have h5 : written (4 ^ 128) [((0 : Fr), (5 : Fr))] (IntRep.rep (0 : Fr)) = 5 := by
    rw [written_single, show IntRep.rep (0 : Fr) = 0 by decide +kernel]; rfl
  obtain ⟨db, e, -⟩ := run_ok demoParams5_valid hT HashDb.new [((0 : Fr), (5 : Fr))] deep_collisionFree
  obtain ⟨-, -, hg, -⟩ := c57_denies_written_4 (env := demoEnv) (env' := demoEnv) rfl demoParams5 demoParams5_valid rfl 128 (by decide) HashDb.new _ deep_collisionFree _ db e 0 hi 5 6 1 2 (fun i => (i : Fr))
    (some [1, 2]) none (.inl rfl) none
  rw [h5] at hg
  refine ⟨_, db, e, hg, ?_, ?_⟩
  · exact c57_end_to_end_4 (env := demoEnv) (env' := demoEnv) rfl demoEnv_ne_zero demoParams5 demoParams5_valid rfl 128 (by decide) HashDb.new _ deep_collisionFree _ db e 0 hi 5 6 1 2 (fun i => (i : Fr))
      (some [1, 2]) none (.inl rfl) (by decide +kernel) (.inl (by decide +kernel))
  · exact c57_not_enforced_4 (env := demoEnv) rfl demoParams5 demoParams5_valid rfl 128 (by decide) HashDb.new _ deep_collisionFree _ db e 0 hi (by rw [h5]; decide +kernel) 5 6

/-- What holds for the small trees: depth 2. -/
example : ∃ t db, runHistory (tree4 demoParams5) 2 HashDb.new demoHistory = .ok (t, db) ∧
    SoundForExactly (2 + 3 * 2) [0] [0] (verifyInclusion4 demoEnv t.root 2 demoParams5 .quint (5 : Fr) 6) fun v => IntRep.rep (v 1) < 4 ^ 2 ∧ (HoldsAt 2 4 demoHistory v ∨
      ∃ a ∈ merkleHashed (tree4 demoParams5).digest ((digitsOf 4 2 (IntRep.rep (v 1))).zip (nodesAt 3 2 2 v)) (v 0),
        ∃ b ∈ childLists (tree4 demoParams5).digest 4 2 (written (4 ^ 2) demoHistory), a ≠ b ∧ (tree4 demoParams5).digest a = (tree4 demoParams5).digest b) := by
  have hT : (tree4 demoParams5).IsTree demoParams5 2 := .inl ⟨rfl, rfl, by decide⟩
  obtain ⟨db, e, -⟩ := run_ok demoParams5_valid hT HashDb.new demoHistory demo_collisionFree
  exact ⟨_, db, e, c57_holds_at_partial (tree4 demoParams5) demoParams5 demoParams5_valid 2 hT (show 4 ^ 2 ≤ blsOrder by decide +kernel) HashDb.new demoHistory demo_collisionFree _ db e demoEnv 5 6 _ (.inl ⟨rfl, rfl⟩)⟩

end Bp
