import Verif.Lemmas.LaurentCos
import Verif.Props.PhaseCert
/-
The series of package eclipse against the latitude and the distance of the Moon: certificates for C182.
-/
namespace Verif.Props

open Real Verif.Spec Verif.Go Verif.Model Verif.Lemmas Verif.Lemmas.PolyQ Verif.Lemmas.Laurent

/-- Latitude of the Moon in 10⁻⁶ degree. -/
def rowsV : List Tm := Moonposition.tb.map rowT

/-- A row of the table of the distance, in metres. -/
def rowR (r : Moonposition.Row) : Tm := ⟨r.D, r.M, r.M', r.F, r.M.natAbs, r.r⟩
def rowsR : List Tm := ⟨0, 0, 0, 0, 0, 385000560⟩ :: Moonposition.ta.map rowR

/-- The terms of the greatest eclipse, in 10⁻⁵ day. -/
def eclC (c1 c2 : ℤ) : List Tm := [⟨0,0,1,0,0,c1⟩,⟨0,1,0,0,1,c2⟩,⟨0,0,2,0,0,1610⟩,⟨0,0,0,2,0,-970⟩,⟨0,-1,1,0,1,730⟩,⟨0,1,1,0,1,-500⟩,⟨0,0,1,-2,0,-230⟩,⟨0,2,0,0,1,210⟩,⟨0,0,1,2,0,120⟩,⟨0,1,2,0,1,60⟩,⟨0,0,3,0,0,-40⟩,⟨0,1,0,2,1,-30⟩,⟨0,1,0,-2,1,-20⟩,⟨0,-1,2,0,1,-20⟩]

/-- The terms of P and Q, in 10⁻⁴. -/
def eclP : List Tm := [⟨0,1,0,0,1,2070⟩,⟨0,2,0,0,1,24⟩,⟨0,0,1,0,0,-392⟩,⟨0,0,2,0,0,116⟩,⟨0,1,1,0,1,-73⟩,⟨0,-1,1,0,1,67⟩,⟨0,0,0,2,0,118⟩]
def eclQ : List Tm := [⟨0,0,0,0,0,52207⟩,⟨0,1,0,0,1,-48⟩,⟨0,2,0,0,1,20⟩,⟨0,0,1,0,0,-3299⟩,⟨0,1,1,0,1,-60⟩,⟨0,-1,1,0,1,41⟩]
def eclF : List Tm := [⟨0,0,0,1,0,1⟩]

/-- The latitude to the second order in the correction. -/
def polyV (col : Tm → Tm) (C : List Tm) : List Tm :=
  let cc (p : List Tm) := sort (p.map col)
  let B := cc (odd C)
  let Bm := cc (odd (C.filter (big 100)))
  let A0 := cc (odd rowsV)
  let A1 := cc (even (rowsV.map (Tm.w1 wq)))
  let A2 := cc (odd ((rowsV.filter (big 800)).map (Tm.w2 wq)))
  merge (smul cN A0) (merge (smul r1 (cc (mul A1 B))) (smul r2 (cc (mul A2 (cc (mul Bm Bm))))))

/-- The distance to the first order. -/
def polyR (col : Tm → Tm) (C : List Tm) : List Tm :=
  let cc (p : List Tm) := sort (p.map col)
  merge (smul cN (cc (even rowsR))) (smul r1 (cc (mul (cc (odd (rowsR.map (Tm.w1 wq)))) (cc (odd C)))))

/-- A product of two such sums less a multiple of P cos F + Q sin F, without the terms in sin F and sin 3F. -/
def polyE (R V : List Tm) (ρ a b : ℤ) : List Tm :=
  merge (mul R V) (merge (smul (-ρ) (merge (mul (sort (odd eclP)) (sort (even eclF))) (mul (sort (even eclQ)) (sort (odd eclF)))))
    (sort (odd [⟨0,0,0,1,0,a⟩,⟨0,0,0,3,0,b⟩])))

/-- The second list holds terms of the first in the same order; the absolute values of the others add up to `n` at most. -/
def sifted : List Tm → List Tm → ℕ → ℕ → Bool
  | [], [], acc, n => Nat.ble acc n
  | [], _ :: _, _, _ => false
  | t :: p, [], acc, n => Nat.ble t.e 3 && sifted p [] (acc + t.c.natAbs) n
  | t :: p, s :: l, acc, n => bif same t s && decide (t.c = s.c) then sifted p l acc n else Nat.ble t.e 3 && sifted p (s :: l) (acc + t.c.natAbs) n

def solR : List Tm := [
  ⟨0,0,-3,0,0,941554200992852619195843798579784943883418470994135870⟩,⟨0,-1,-2,0,1,-845104019312843813818810657260641202912407538605008630⟩,
  ⟨0,0,-2,0,0,47988119466891644514652357909149215185923142630389446880⟩,⟨0,1,-2,0,1,725120925819343180548618649408792113200144839547940090⟩,
  ⟨0,0,-1,-2,0,2883761561118554156198754425055020705645336836847042880⟩,⟨0,-2,-1,0,1,-433282871191673556601053624552870257490690466571952210⟩,
  ⟨0,-1,-1,0,1,-41997964785386581796489071989043132053161828631991779220⟩,⟨0,0,-1,0,0,-2482848656457504939539410022048341330834664401153497585870⟩,
  ⟨0,0,-1,0,2,-784265095037953121328225138693715313517180860310639870⟩,⟨0,1,-1,0,1,25417074070265253379258944640610246826264084356060710380⟩,
  ⟨0,2,-1,0,1,433282871191673556601053624552870257490690466571952210⟩,⟨0,2,-1,0,2,416656942484014138986620977756664081735566356676512930⟩,
  ⟨0,0,-1,2,0,6369604912490158534145980024709352738278722397863489350⟩,⟨0,-1,0,0,1,-13495183146988979108546993938363628006748137856818337480⟩,
  ⟨0,0,0,0,0,76260584186699388321349744897625757529988241246703321705120⟩,⟨0,0,0,0,2,-1585561684002993868981331855722216220568994982693993880⟩,
  ⟨0,1,0,0,1,-13495183146988979108546993938363628006748137856818337480⟩,⟨0,0,1,-2,0,6369604912490158534145980024709352738278722397863489350⟩,
  ⟨0,-2,1,0,1,433282871191673556601053624552870257490690466571952210⟩,⟨0,-2,1,0,2,416656942484014138986620977756664081735566356676512930⟩,
  ⟨0,-1,1,0,1,25417074070265253379258944640610246826264084356060710380⟩,⟨0,0,1,0,0,-2482848656457504939539410022048341330834664401153497585870⟩,
  ⟨0,0,1,0,2,-784265095037953121328225138693715313517180860310639870⟩,⟨0,1,1,0,1,-41997964785386581796489071989043132053161828631991779220⟩,
  ⟨0,2,1,0,1,-433282871191673556601053624552870257490690466571952210⟩,⟨0,0,1,2,0,2883761561118554156198754425055020705645336836847042880⟩,
  ⟨0,-1,2,0,1,725120925819343180548618649408792113200144839547940090⟩,⟨0,0,2,0,0,47988119466891644514652357909149215185923142630389446880⟩,
  ⟨0,1,2,0,1,-845104019312843813818810657260641202912407538605008630⟩,⟨0,0,3,0,0,941554200992852619195843798579784943883418470994135870⟩]
def solV : List Tm := [
  ⟨0,0,-5,-1,0,-1268068512611306313699144174901871988916039772566800⟩,⟨0,0,-4,-1,0,2953273095514764749775818459013295368376407483525360⟩,
  ⟨0,-1,-3,-1,1,-3588583509055141283841291432691297143980407566029820⟩,⟨0,0,-3,-1,0,-2309020579754179614241121785910575499662061485635920⟩,
  ⟨0,0,-3,1,0,-12930646149779816740509411622773124832967780115381880⟩,⟨0,0,-2,-3,0,-6524907415729921408959372490630078931384776277558940⟩,
  ⟨0,-1,-2,-1,1,-5984726807672176929247528972363977015796753519099840⟩,⟨0,0,-2,-1,0,-206886052804831989100249250126250142744400884058318960⟩,
  ⟨0,0,-2,-1,2,1530661776429957439877913365924244827787114480267000⟩,⟨0,1,-2,-1,1,-9518522352009584715361786522634789536702140236737110⟩,
  ⟨0,-1,-2,1,1,-15844653886904486987922768388303885966915695695630520⟩,⟨0,0,-2,1,0,-772641344365715516187279017191847873880178377036325180⟩,
  ⟨0,-1,-1,-3,1,2789873493987678823592288402445612297770316162644720⟩,⟨0,0,-1,-3,0,-37528208366176471354920710531410761098719262047150800⟩,
  ⟨0,1,-1,-3,1,-1826594288957398969773132133560993967893441960791250⟩,⟨0,-2,-1,-1,1,-7981725143860951697648782973522070462000881679200040⟩,
  ⟨0,-2,-1,-1,2,-9835848016783743533988238318763496508541397747806140⟩,⟨0,-1,-1,-1,1,51305347444275360285982947706961131357045041344201540⟩,
  ⟨0,0,-1,-1,0,1497311797860805416045262427586973164016780335734522320⟩,⟨0,0,-1,-1,2,17473312657640010388137868659419901891470543891136390⟩,
  ⟨0,1,-1,-1,1,-26598415711857388316473965085102909263278185179544560⟩,⟨0,2,-1,-1,1,7981725143860951697648782973522070462000881679200040⟩,
  ⟨0,2,-1,-1,2,-5518432863103786335946546804833612886696291184782840⟩,⟨0,-2,-1,1,1,-8851624258000129385582302551893367035735967883852620⟩,
  ⟨0,-2,-1,1,2,-10610571762793405909326776854713362152922943290670050⟩,⟨0,-1,-1,1,1,14752186941782214837966520111386250031363718428878470⟩,
  ⟨0,0,-1,1,0,2268856880829637777781637350602492451111059748743116140⟩,⟨0,0,-1,1,2,18051830950385021505337531258595778154164857284494680⟩,
  ⟨0,1,-1,1,1,44030537511768809316909414428624530709368725439855210⟩,⟨0,2,-1,1,1,8851624258000129385582302551893367035735967883852620⟩,
  ⟨0,2,-1,1,2,-5297940592860412593707527814031435452191213624709940⟩,⟨0,-1,-1,3,1,1391757808769483986557471267046121877848477983229880⟩,
  ⟨0,0,-1,3,0,-2519501540901300039401523981704557652447058826316120⟩,⟨0,1,-1,3,1,-1506883730143578005645934158101313373271836465410040⟩,
  ⟨0,-1,0,-3,1,41812328360664700912101524600315630793506958460271280⟩,⟨0,0,0,-3,0,822935419421426468939201048545343630008126899937537660⟩,
  ⟨0,1,0,-3,1,-34795442090788990077603257257434842518300276294754370⟩,⟨0,-3,0,-1,2,-2598163150818841602480309123837861006543814443508440⟩,
  ⟨0,-2,0,-1,1,-131411883875460238668937595024033911730128895250251760⟩,⟨0,-2,0,-1,2,-79466489588488518525854921191914232821633821150284650⟩,
  ⟨0,-1,0,-1,1,-9663073881511131032564325302340115093199355761856457960⟩,⟨0,-1,0,-1,2,2409185189425311428977365726039038290704359323136820⟩,
  ⟨0,0,0,-1,0,-499040245718893715052659973419747395607996287962176883100⟩,⟨0,0,0,-1,2,204275536949501369547086448420265847118857191298040930⟩,
  ⟨0,1,0,-1,1,10039438804906430039197720334782121139684334713719606150⟩,⟨0,1,0,-1,2,2598163150818841602480309123837861006543814443508440⟩,
  ⟨0,2,0,-1,1,131411883875460238668937595024033911730128895250251760⟩,⟨0,2,0,-1,2,-105272906824415862454613770862758049613559217327527480⟩,
  ⟨0,3,0,-1,2,-2409185189425311428977365726039038290704359323136820⟩,⟨0,-3,0,1,2,2409185189425311428977365726039038290704359323136820⟩,
  ⟨0,-2,0,1,1,-131411883875460238668937595024033911730128895250251760⟩,⟨0,-2,0,1,2,105272906824415862454613770862758049613559217327527480⟩,
  ⟨0,-1,0,1,1,-10039438804906430039197720334782121139684334713719606150⟩,⟨0,-1,0,1,2,-2598163150818841602480309123837861006543814443508440⟩,
  ⟨0,0,0,1,0,499040245718893715052659973419747395607996287962176883100⟩,⟨0,0,0,1,2,-204275536949501369547086448420265847118857191298040930⟩,
  ⟨0,1,0,1,1,9663073881511131032564325302340115093199355761856457960⟩,⟨0,1,0,1,2,-2409185189425311428977365726039038290704359323136820⟩,
  ⟨0,2,0,1,1,131411883875460238668937595024033911730128895250251760⟩,⟨0,2,0,1,2,79466489588488518525854921191914232821633821150284650⟩,
  ⟨0,3,0,1,2,2598163150818841602480309123837861006543814443508440⟩,⟨0,-1,0,3,1,34795442090788990077603257257434842518300276294754370⟩,
  ⟨0,0,0,3,0,-822935419421426468939201048545343630008126899937537660⟩,⟨0,1,0,3,1,-41812328360664700912101524600315630793506958460271280⟩,
  ⟨0,-1,1,-3,1,1506883730143578005645934158101313373271836465410040⟩,⟨0,0,1,-3,0,2519501540901300039401523981704557652447058826316120⟩,
  ⟨0,1,1,-3,1,-1391757808769483986557471267046121877848477983229880⟩,⟨0,-2,1,-1,1,-8851624258000129385582302551893367035735967883852620⟩,
  ⟨0,-2,1,-1,2,5297940592860412593707527814031435452191213624709940⟩,⟨0,-1,1,-1,1,-44030537511768809316909414428624530709368725439855210⟩,
  ⟨0,0,1,-1,0,-2268856880829637777781637350602492451111059748743116140⟩,⟨0,0,1,-1,2,-18051830950385021505337531258595778154164857284494680⟩,
  ⟨0,1,1,-1,1,-14752186941782214837966520111386250031363718428878470⟩,⟨0,2,1,-1,1,8851624258000129385582302551893367035735967883852620⟩,
  ⟨0,2,1,-1,2,10610571762793405909326776854713362152922943290670050⟩,⟨0,-2,1,1,1,-7981725143860951697648782973522070462000881679200040⟩,
  ⟨0,-2,1,1,2,5518432863103786335946546804833612886696291184782840⟩,⟨0,-1,1,1,1,26598415711857388316473965085102909263278185179544560⟩,
  ⟨0,0,1,1,0,-1497311797860805416045262427586973164016780335734522320⟩,⟨0,0,1,1,2,-17473312657640010388137868659419901891470543891136390⟩,
  ⟨0,1,1,1,1,-51305347444275360285982947706961131357045041344201540⟩,⟨0,2,1,1,1,7981725143860951697648782973522070462000881679200040⟩,
  ⟨0,2,1,1,2,9835848016783743533988238318763496508541397747806140⟩,⟨0,-1,1,3,1,1826594288957398969773132133560993967893441960791250⟩,
  ⟨0,0,1,3,0,37528208366176471354920710531410761098719262047150800⟩,⟨0,1,1,3,1,-2789873493987678823592288402445612297770316162644720⟩,
  ⟨0,0,2,-1,0,772641344365715516187279017191847873880178377036325180⟩,⟨0,1,2,-1,1,15844653886904486987922768388303885966915695695630520⟩,
  ⟨0,-1,2,1,1,9518522352009584715361786522634789536702140236737110⟩,⟨0,0,2,1,0,206886052804831989100249250126250142744400884058318960⟩,
  ⟨0,0,2,1,2,-1530661776429957439877913365924244827787114480267000⟩,⟨0,1,2,1,1,5984726807672176929247528972363977015796753519099840⟩,
  ⟨0,0,2,3,0,6524907415729921408959372490630078931384776277558940⟩,⟨0,0,3,-1,0,12930646149779816740509411622773124832967780115381880⟩,
  ⟨0,0,3,1,0,2309020579754179614241121785910575499662061485635920⟩,⟨0,1,3,1,1,3588583509055141283841291432691297143980407566029820⟩,
  ⟨0,0,4,1,0,-2953273095514764749775818459013295368376407483525360⟩,⟨0,0,5,1,0,1268068512611306313699144174901871988916039772566800⟩]
def lunR : List Tm := [
  ⟨0,0,-3,0,0,909604032522927609918622656157991982157418995863446530⟩,⟨0,-1,-2,0,1,-835703499451698153045334203470732352875418814144002370⟩,
  ⟨0,0,-2,0,0,48183895382523843466818949695690529995640179191370860620⟩,⟨0,1,-2,0,1,716245471495698100087289231298553894122674983971362010⟩,
  ⟨0,0,-1,-2,0,2885087374749354995153775469962848364067869431285632220⟩,⟨0,-2,-1,0,1,-433560527319111848481437403796909850460850652556736350⟩,
  ⟨0,-1,-1,0,1,-42296127121453381807622961579231811893594582881567121880⟩,⟨0,0,-1,0,0,-2483056838424826359935872575962182327524178649047392450050⟩,
  ⟨0,0,-1,0,2,-782487242846871472429726625444998355144107158986075970⟩,⟨0,1,-1,0,1,25715149736459463100968985623043380935693775273637873740⟩,
  ⟨0,2,-1,0,1,433560527319111848481437403796909850460850652556736350⟩,⟨0,2,-1,0,2,414884971164743382783680291742681380007090416705175630⟩,
  ⟨0,0,-1,2,0,6368324368760019061501821272113432878616397176087985930⟩,⟨0,-1,0,0,1,-10160725135471224873256801615890973225895164562987066140⟩,
  ⟨0,0,0,0,0,76217390782169372532012614213444496654891642651386466182480⟩,⟨0,0,0,0,2,-1723744508536798168072585807983089631579594429015347760⟩,
  ⟨0,1,0,0,1,-10160725135471224873256801615890973225895164562987066140⟩,⟨0,0,1,-2,0,6368324368760019061501821272113432878616397176087985930⟩,
  ⟨0,-2,1,0,1,433560527319111848481437403796909850460850652556736350⟩,⟨0,-2,1,0,2,414884971164743382783680291742681380007090416705175630⟩,
  ⟨0,-1,1,0,1,25715149736459463100968985623043380935693775273637873740⟩,⟨0,0,1,0,0,-2483056838424826359935872575962182327524178649047392450050⟩,
  ⟨0,0,1,0,2,-782487242846871472429726625444998355144107158986075970⟩,⟨0,1,1,0,1,-42296127121453381807622961579231811893594582881567121880⟩,
  ⟨0,2,1,0,1,-433560527319111848481437403796909850460850652556736350⟩,⟨0,0,1,2,0,2885087374749354995153775469962848364067869431285632220⟩,
  ⟨0,-1,2,0,1,716245471495698100087289231298553894122674983971362010⟩,⟨0,0,2,0,0,48183895382523843466818949695690529995640179191370860620⟩,
  ⟨0,1,2,0,1,-835703499451698153045334203470732352875418814144002370⟩,⟨0,0,3,0,0,909604032522927609918622656157991982157418995863446530⟩]
def lunV : List Tm := [
  ⟨0,0,-5,-1,0,-1261786363807849032229024968562843282893720787846800⟩,⟨0,0,-4,-1,0,2969786994203064285190133626821733523565756490825040⟩,
  ⟨0,-1,-3,-1,1,-3609105973806959523887506252573293511881957180218540⟩,⟨0,0,-3,-1,0,-2396101503848182619198924087467623409328074806502000⟩,
  ⟨0,0,-3,1,0,-13169312253129909587704435632938014645729619161141360⟩,⟨0,0,-2,-3,0,-6516166393328621389867220623057811175651053821267380⟩,
  ⟨0,-1,-2,-1,1,-6105068944204067741319725660306088616887304446943320⟩,⟨0,0,-2,-1,0,-209092767423173323833116759887649322088705946021794080⟩,
  ⟨0,0,-2,-1,2,1549388913491781654875742456544289655328401090496600⟩,⟨0,1,-2,-1,1,-9292407884811648507035312040758558094495822654994290⟩,
  ⟨0,-1,-2,1,1,-15915360159058172062562722642999990267900785808337360⟩,⟨0,0,-2,1,0,-775257926274976395292226860829104973128849180886430500⟩,
  ⟨0,-1,-1,-3,1,2811253839009476305699266039272659240809615813556040⟩,⟨0,0,-1,-3,0,-37438584797250048092086605225244657921461143069900880⟩,
  ⟨0,1,-1,-3,1,-1834222162679566846185164619298219791348443918188170⟩,⟨0,-2,-1,-1,1,-8003423041691873765703361945621533793370070901785960⟩,
  ⟨0,-2,-1,-1,2,-9993981918300038395491590831184168097627767812329100⟩,⟨0,-1,-1,-1,1,43337630357756311476084858391334251666582136706860500⟩,
  ⟨0,0,-1,-1,0,1447354767735255752961484247456094090144747770525667920⟩,⟨0,0,-1,-1,2,17732338087226958982742506988866961501357602797356370⟩,
  ⟨0,1,-1,-1,1,-23022967302819192103588234630451639868667316308081680⟩,⟨0,2,-1,-1,1,8003423041691873765703361945621533793370070901785960⟩,
  ⟨0,2,-1,-1,2,-5601502473223422166377182349970829084498407569657840⟩,⟨0,-2,-1,1,1,-8856557407751519846816253853531116328863131402473740⟩,
  ⟨0,-2,-1,1,2,-10652532404844738951038970401618648807753691812282950⟩,⟨0,-1,-1,1,1,12062747725920447427565684653995101388983280438102510⟩,
  ⟨0,0,-1,1,0,2199556383698615778275852266138368940979573887417107460⟩,⟨0,0,-1,1,2,18065008526308676729707100284988325072807476361758240⟩,
  ⟨0,1,-1,1,1,42288256338884056508985341425091483053351049096189370⟩,⟨0,2,-1,1,1,8856557407751519846816253853531116328863131402473740⟩,
  ⟨0,2,-1,1,2,-5251360985536317469217677199161201975390932035778580⟩,⟨0,-1,-1,3,1,1390230337337442239345308761627705416090539659406240⟩,
  ⟨0,0,-1,3,0,-2330286977164771258535164772386891089316079615801880⟩,⟨0,1,-1,3,1,-1528772981926713369547500307641585591325673207797640⟩,
  ⟨0,-1,0,-3,1,41836315534813129790549443041805583826551120059698800⟩,⟨0,0,0,-3,0,823536935894559572584060926681261275129588380809043780⟩,
  ⟨0,1,0,-3,1,-34912605448654789138393593882614649622286365528075610⟩,⟨0,-3,0,-1,2,-2590738266265421234024361990333930497013615936763800⟩,
  ⟨0,-2,0,-1,1,-131543237347208714564286141034407727898052910295897520⟩,⟨0,-2,0,-1,2,-78655708329796591726911729229660928426694918155691010⟩,
  ⟨0,-1,0,-1,1,-9666745939290364429927301559258071600343714312972550400⟩,⟨0,-1,0,-1,2,2423278835765079043389643244647769381935490741882220⟩,
  ⟨0,0,0,-1,0,-499071295497025943638690703734613796952134225909070521380⟩,⟨0,0,0,-1,2,204366691379424442877293258463061673820857462305342690⟩,
  ⟨0,1,0,-1,1,10042994300763800134308239129329746031523092812859133970⟩,⟨0,1,0,-1,2,2590738266265421234024361990333930497013615936763800⟩,
  ⟨0,2,0,-1,1,131543237347208714564286141034407727898052910295897520⟩,⟨0,2,0,-1,2,-106175640211066665415490174782454867240543803893048120⟩,
  ⟨0,3,0,-1,2,-2423278835765079043389643244647769381935490741882220⟩,⟨0,-3,0,1,2,2423278835765079043389643244647769381935490741882220⟩,
  ⟨0,-2,0,1,1,-131543237347208714564286141034407727898052910295897520⟩,⟨0,-2,0,1,2,106175640211066665415490174782454867240543803893048120⟩,
  ⟨0,-1,0,1,1,-10042994300763800134308239129329746031523092812859133970⟩,⟨0,-1,0,1,2,-2590738266265421234024361990333930497013615936763800⟩,
  ⟨0,0,0,1,0,499071295497025943638690703734613796952134225909070521380⟩,⟨0,0,0,1,2,-204366691379424442877293258463061673820857462305342690⟩,
  ⟨0,1,0,1,1,9666745939290364429927301559258071600343714312972550400⟩,⟨0,1,0,1,2,-2423278835765079043389643244647769381935490741882220⟩,
  ⟨0,2,0,1,1,131543237347208714564286141034407727898052910295897520⟩,⟨0,2,0,1,2,78655708329796591726911729229660928426694918155691010⟩,
  ⟨0,3,0,1,2,2590738266265421234024361990333930497013615936763800⟩,⟨0,-1,0,3,1,34912605448654789138393593882614649622286365528075610⟩,
  ⟨0,0,0,3,0,-823536935894559572584060926681261275129588380809043780⟩,⟨0,1,0,3,1,-41836315534813129790549443041805583826551120059698800⟩,
  ⟨0,-1,1,-3,1,1528772981926713369547500307641585591325673207797640⟩,⟨0,0,1,-3,0,2330286977164771258535164772386891089316079615801880⟩,
  ⟨0,1,1,-3,1,-1390230337337442239345308761627705416090539659406240⟩,⟨0,-2,1,-1,1,-8856557407751519846816253853531116328863131402473740⟩,
  ⟨0,-2,1,-1,2,5251360985536317469217677199161201975390932035778580⟩,⟨0,-1,1,-1,1,-42288256338884056508985341425091483053351049096189370⟩,
  ⟨0,0,1,-1,0,-2199556383698615778275852266138368940979573887417107460⟩,⟨0,0,1,-1,2,-18065008526308676729707100284988325072807476361758240⟩,
  ⟨0,1,1,-1,1,-12062747725920447427565684653995101388983280438102510⟩,⟨0,2,1,-1,1,8856557407751519846816253853531116328863131402473740⟩,
  ⟨0,2,1,-1,2,10652532404844738951038970401618648807753691812282950⟩,⟨0,-2,1,1,1,-8003423041691873765703361945621533793370070901785960⟩,
  ⟨0,-2,1,1,2,5601502473223422166377182349970829084498407569657840⟩,⟨0,-1,1,1,1,23022967302819192103588234630451639868667316308081680⟩,
  ⟨0,0,1,1,0,-1447354767735255752961484247456094090144747770525667920⟩,⟨0,0,1,1,2,-17732338087226958982742506988866961501357602797356370⟩,
  ⟨0,1,1,1,1,-43337630357756311476084858391334251666582136706860500⟩,⟨0,2,1,1,1,8003423041691873765703361945621533793370070901785960⟩,
  ⟨0,2,1,1,2,9993981918300038395491590831184168097627767812329100⟩,⟨0,-1,1,3,1,1834222162679566846185164619298219791348443918188170⟩,
  ⟨0,0,1,3,0,37438584797250048092086605225244657921461143069900880⟩,⟨0,1,1,3,1,-2811253839009476305699266039272659240809615813556040⟩,
  ⟨0,0,2,-1,0,775257926274976395292226860829104973128849180886430500⟩,⟨0,1,2,-1,1,15915360159058172062562722642999990267900785808337360⟩,
  ⟨0,-1,2,1,1,9292407884811648507035312040758558094495822654994290⟩,⟨0,0,2,1,0,209092767423173323833116759887649322088705946021794080⟩,
  ⟨0,0,2,1,2,-1549388913491781654875742456544289655328401090496600⟩,⟨0,1,2,1,1,6105068944204067741319725660306088616887304446943320⟩,
  ⟨0,0,2,3,0,6516166393328621389867220623057811175651053821267380⟩,⟨0,0,3,-1,0,13169312253129909587704435632938014645729619161141360⟩,
  ⟨0,0,3,1,0,2396101503848182619198924087467623409328074806502000⟩,⟨0,1,3,1,1,3609105973806959523887506252573293511881957180218540⟩,
  ⟨0,0,4,1,0,-2969786994203064285190133626821733523565756490825040⟩,⟨0,0,5,1,0,1261786363807849032229024968562843282893720787846800⟩]

def solC : List Tm := eclC (-40750) 17210
def lunC : List Tm := eclC (-40650) 17270

theorem solR_sifted : sifted (polyR col0 solC) solR 0 (38000 * 10 ^ 50) = true := by decide +kernel
theorem solV_sifted : sifted (polyV col0 solC) solV 0 (400 * 10 ^ 50) = true := by decide +kernel
theorem lunR_sifted : sifted (polyR col2 lunC) lunR 0 (38000 * 10 ^ 50) = true := by decide +kernel
theorem lunV_sifted : sifted (polyV col2 lunC) lunV 0 (400 * 10 ^ 50) = true := by decide +kernel

/-- The product, with the constants of the two cases. -/
def solE : List Tm := polyE solR solV (3610148786266 * 10 ^ 98) (-317540547737539 * 10 ^ 99) (105446894155935 * 10 ^ 99)
def lunE : List Tm := polyE lunR lunV (3619490333683 * 10 ^ 98) (-200750813226699 * 10 ^ 99) (105567555641078 * 10 ^ 99)
theorem solE_l1 : Nat.ble (Laurent.l1 (one solE)) (20000000000000 * 10 ^ 100) = true := by decide +kernel
theorem solE_le : Nat.ble (le solE) (23000000000000 * 10 ^ 100) = true := by decide +kernel
theorem lunE_l1 : Nat.ble (Laurent.l1 (one lunE)) (18500000000000 * 10 ^ 100) = true := by decide +kernel
theorem lunE_le : Nat.ble (le lunE) (23000000000000 * 10 ^ 100) = true := by decide +kernel

end Verif.Props
