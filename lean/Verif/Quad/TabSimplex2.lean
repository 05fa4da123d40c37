import Verif.Quad.Lit

/-! The table of `SimplexQuadraturePoints<2>::init`, simplexquadrature.hh:86-744 (generated from the source file).
Constant expressions such as `0.5 * 0.1099`, `4.0/6.0` stand for their exact value, written as a reduced
fraction. -/

namespace Verif.Quad.Simplex2

/-- simplexquadrature.hh:98-101 -/
def block0 : Row := ⟨[1], 1, [
  ⟨[⟨333333333333333333333333333333333, 1000000000000000000000000000000000⟩, ⟨333333333333333333333333333333333, 1000000000000000000000000000000000⟩], ⟨1, 2⟩⟩]⟩

/-- simplexquadrature.hh:113-122 -/
def block1 : Row := ⟨[3], 2, [
  ⟨[⟨2, 3⟩, ⟨1, 6⟩], ⟨1, 6⟩⟩,
  ⟨[⟨1, 6⟩, ⟨2, 3⟩], ⟨1, 6⟩⟩,
  ⟨[⟨1, 6⟩, ⟨1, 6⟩], ⟨1, 6⟩⟩]⟩

/-- simplexquadrature.hh:134-147 -/
def block2 : Row := ⟨[4], 3, [
  ⟨[⟨1, 3⟩, ⟨1, 3⟩], ⟨-9, 32⟩⟩,
  ⟨[⟨3, 5⟩, ⟨1, 5⟩], ⟨25, 96⟩⟩,
  ⟨[⟨1, 5⟩, ⟨3, 5⟩], ⟨25, 96⟩⟩,
  ⟨[⟨1, 5⟩, ⟨1, 5⟩], ⟨25, 96⟩⟩]⟩

/-- simplexquadrature.hh:159-178 -/
def block3 : Row := ⟨[6], 4, [
  ⟨[⟨2042118932451146282702142682989, 2500000000000000000000000000000⟩, ⟨45788106754885371729785731701101, 500000000000000000000000000000000⟩], ⟨10995174365532186763832632490021, 200000000000000000000000000000000⟩⟩,
  ⟨[⟨45788106754885371729785731701101, 500000000000000000000000000000000⟩, ⟨2042118932451146282702142682989, 2500000000000000000000000000000⟩], ⟨10995174365532186763832632490021, 200000000000000000000000000000000⟩⟩,
  ⟨[⟨45788106754885371729785731701101, 500000000000000000000000000000000⟩, ⟨45788106754885371729785731701101, 500000000000000000000000000000000⟩], ⟨10995174365532186763832632490021, 200000000000000000000000000000000⟩⟩,
  ⟨[⟨1081030181680702273633414922339, 10000000000000000000000000000000⟩, ⟨8918969818319297726366585077661, 20000000000000000000000000000000⟩], ⟨1396134935487571660593793802707, 12500000000000000000000000000000⟩⟩,
  ⟨[⟨8918969818319297726366585077661, 20000000000000000000000000000000⟩, ⟨1081030181680702273633414922339, 10000000000000000000000000000000⟩], ⟨1396134935487571660593793802707, 12500000000000000000000000000000⟩⟩,
  ⟨[⟨8918969818319297726366585077661, 20000000000000000000000000000000⟩, ⟨8918969818319297726366585077661, 20000000000000000000000000000000⟩], ⟨1396134935487571660593793802707, 12500000000000000000000000000000⟩⟩]⟩

/-- simplexquadrature.hh:190-212 -/
def block4 : Row := ⟨[7], 5, [
  ⟨[⟨333333333333333333333333333333333, 1000000000000000000000000000000000⟩, ⟨333333333333333333333333333333333, 1000000000000000000000000000000000⟩], ⟨9, 80⟩⟩,
  ⟨[⟨3189707941412349289592101104679, 4000000000000000000000000000000⟩, ⟨1012865073234563388009873619151, 10000000000000000000000000000000⟩], ⟨6296959027241357629784197275009, 100000000000000000000000000000000⟩⟩,
  ⟨[⟨1266081341543204235012342023939, 12500000000000000000000000000000⟩, ⟨3189707941412349289592101104679, 4000000000000000000000000000000⟩], ⟨6296959027241357629784197275009, 100000000000000000000000000000000⟩⟩,
  ⟨[⟨1266081341543204235012342023939, 12500000000000000000000000000000⟩, ⟨1266081341543204235012342023939, 12500000000000000000000000000000⟩], ⟨6296959027241357629784197275009, 100000000000000000000000000000000⟩⟩,
  ⟨[⟨5971587178976982045911758097311, 100000000000000000000000000000000⟩, ⟨9402841282102301795408824190269, 20000000000000000000000000000000⟩], ⟨2647883055770123614752987756663, 40000000000000000000000000000000⟩⟩,
  ⟨[⟨9402841282102301795408824190269, 20000000000000000000000000000000⟩, ⟨5971587178976982045911758097311, 100000000000000000000000000000000⟩], ⟨2647883055770123614752987756663, 40000000000000000000000000000000⟩⟩,
  ⟨[⟨9402841282102301795408824190269, 20000000000000000000000000000000⟩, ⟨9402841282102301795408824190269, 20000000000000000000000000000000⟩], ⟨2647883055770123614752987756663, 40000000000000000000000000000000⟩⟩]⟩

/-- simplexquadrature.hh:224-261 -/
def block5 : Row := ⟨[12], 6, [
  ⟨[⟨63089014491502228340331602870819, 1000000000000000000000000000000000⟩, ⟨63089014491502228340331602870819, 1000000000000000000000000000000000⟩], ⟨50844906370206816920936809106869, 2000000000000000000000000000000000⟩⟩,
  ⟨[⟨63089014491502228340331602870819, 1000000000000000000000000000000000⟩, ⟨21845549275424888582983419856459, 25000000000000000000000000000000⟩], ⟨50844906370206816920936809106869, 2000000000000000000000000000000000⟩⟩,
  ⟨[⟨21845549275424888582983419856459, 25000000000000000000000000000000⟩, ⟨63089014491502228340331602870819, 1000000000000000000000000000000000⟩], ⟨50844906370206816920936809106869, 2000000000000000000000000000000000⟩⟩,
  ⟨[⟨12464337258545521064581927655351, 50000000000000000000000000000000⟩, ⟨12464337258545521064581927655351, 50000000000000000000000000000000⟩], ⟨5839313786318968301264480569279, 100000000000000000000000000000000⟩⟩,
  ⟨[⟨12464337258545521064581927655351, 50000000000000000000000000000000⟩, ⟨12535662741454478935418072344649, 25000000000000000000000000000000⟩], ⟨5839313786318968301264480569279, 100000000000000000000000000000000⟩⟩,
  ⟨[⟨12535662741454478935418072344649, 25000000000000000000000000000000⟩, ⟨12464337258545521064581927655351, 50000000000000000000000000000000⟩], ⟨5839313786318968301264480569279, 100000000000000000000000000000000⟩⟩,
  ⟨[⟨26572524922408473676624835815699, 500000000000000000000000000000000⟩, ⟨6207049020675688108332154679131, 20000000000000000000000000000000⟩], ⟨41425537809186787596776728210221, 1000000000000000000000000000000000⟩⟩,
  ⟨[⟨26572524922408473676624835815699, 500000000000000000000000000000000⟩, ⟨12730049982427972944602851888241, 20000000000000000000000000000000⟩], ⟨41425537809186787596776728210221, 1000000000000000000000000000000000⟩⟩,
  ⟨[⟨6207049020675688108332154679131, 20000000000000000000000000000000⟩, ⟨26572524922408473676624835815699, 500000000000000000000000000000000⟩], ⟨41425537809186787596776728210221, 1000000000000000000000000000000000⟩⟩,
  ⟨[⟨6207049020675688108332154679131, 20000000000000000000000000000000⟩, ⟨12730049982427972944602851888241, 20000000000000000000000000000000⟩], ⟨41425537809186787596776728210221, 1000000000000000000000000000000000⟩⟩,
  ⟨[⟨12730049982427972944602851888241, 20000000000000000000000000000000⟩, ⟨26572524922408473676624835815699, 500000000000000000000000000000000⟩], ⟨41425537809186787596776728210221, 1000000000000000000000000000000000⟩⟩,
  ⟨[⟨12730049982427972944602851888241, 20000000000000000000000000000000⟩, ⟨6207049020675688108332154679131, 20000000000000000000000000000000⟩], ⟨41425537809186787596776728210221, 1000000000000000000000000000000000⟩⟩]⟩

/-- simplexquadrature.hh:272-309 -/
def block6 : Row := ⟨[12], 7, [
  ⟨[⟨623822650944021181736830009963499, 10000000000000000000000000000000000⟩, ⟨135035734147832170885114262101737, 2000000000000000000000000000000000⟩], ⟨26517028157436251428754180460739, 1000000000000000000000000000000000⟩⟩,
  ⟨[⟨135035734147832170885114262101737, 2000000000000000000000000000000000⟩, ⟨435049933915840898191879933976391, 500000000000000000000000000000000⟩], ⟨26517028157436251428754180460739, 1000000000000000000000000000000000⟩⟩,
  ⟨[⟨435049933915840898191879933976391, 500000000000000000000000000000000⟩, ⟨623822650944021181736830009963499, 10000000000000000000000000000000000⟩], ⟨26517028157436251428754180460739, 1000000000000000000000000000000000⟩⟩,
  ⟨[⟨552254566569266117374791902756449, 10000000000000000000000000000000000⟩, ⟨160751246925990911333153924599601, 500000000000000000000000000000000⟩], ⟨3510512697155684402941592251143, 80000000000000000000000000000000⟩⟩,
  ⟨[⟨160751246925990911333153924599601, 500000000000000000000000000000000⟩, ⟨623272049491091565596212960525153, 1000000000000000000000000000000000⟩], ⟨3510512697155684402941592251143, 80000000000000000000000000000000⟩⟩,
  ⟨[⟨623272049491091565596212960525153, 1000000000000000000000000000000000⟩, ⟨552254566569266117374791902756449, 10000000000000000000000000000000000⟩], ⟨3510512697155684402941592251143, 80000000000000000000000000000000⟩⟩,
  ⟨[⟨21452689340685716543519151552461, 625000000000000000000000000000000⟩, ⟨660949196186735657611980310197799, 1000000000000000000000000000000000⟩], ⟨57550085569963171476890993800437, 2000000000000000000000000000000000⟩⟩,
  ⟨[⟨660949196186735657611980310197799, 1000000000000000000000000000000000⟩, ⟨304726500868167195918389047318263, 1000000000000000000000000000000000⟩], ⟨57550085569963171476890993800437, 2000000000000000000000000000000000⟩⟩,
  ⟨[⟨304726500868167195918389047318263, 1000000000000000000000000000000000⟩, ⟨21452689340685716543519151552461, 625000000000000000000000000000000⟩], ⟨57550085569963171476890993800437, 2000000000000000000000000000000000⟩⟩,
  ⟨[⟨51584233435359177925746338682643, 100000000000000000000000000000000⟩, ⟨277716166976391782569581871393723, 1000000000000000000000000000000000⟩], ⟨3374659350490138723134854308321, 50000000000000000000000000000000⟩⟩,
  ⟨[⟨277716166976391782569581871393723, 1000000000000000000000000000000000⟩, ⟨4128829973400328763459094835597, 20000000000000000000000000000000⟩], ⟨3374659350490138723134854308321, 50000000000000000000000000000000⟩⟩,
  ⟨[⟨4128829973400328763459094835597, 20000000000000000000000000000000⟩, ⟨51584233435359177925746338682643, 100000000000000000000000000000000⟩], ⟨3374659350490138723134854308321, 50000000000000000000000000000000⟩⟩]⟩

/-- simplexquadrature.hh:320-369 -/
def block7 : Row := ⟨[16], 8, [
  ⟨[⟨33333333333333333333333333333333, 100000000000000000000000000000000⟩, ⟨33333333333333333333333333333333, 100000000000000000000000000000000⟩], ⟨7215780383889358412554555524453, 100000000000000000000000000000000⟩⟩,
  ⟨[⟨8528465387588010331114675074573, 50000000000000000000000000000000⟩, ⟨8528465387588010331114675074573, 50000000000000000000000000000000⟩], ⟨10321737053471825028179155029213, 200000000000000000000000000000000⟩⟩,
  ⟨[⟨8528465387588010331114675074573, 50000000000000000000000000000000⟩, ⟨65886138449647958675541299701707, 100000000000000000000000000000000⟩], ⟨10321737053471825028179155029213, 200000000000000000000000000000000⟩⟩,
  ⟨[⟨65886138449647958675541299701707, 100000000000000000000000000000000⟩, ⟨8528465387588010331114675074573, 50000000000000000000000000000000⟩], ⟨10321737053471825028179155029213, 200000000000000000000000000000000⟩⟩,
  ⟨[⟨50547228317030975458423550596599, 1000000000000000000000000000000000⟩, ⟨50547228317030975458423550596599, 1000000000000000000000000000000000⟩], ⟨1622924881159904015546296417089, 100000000000000000000000000000000⟩⟩,
  ⟨[⟨50547228317030975458423550596599, 1000000000000000000000000000000000⟩, ⟨2247263858414845122707882247017, 2500000000000000000000000000000⟩], ⟨1622924881159904015546296417089, 100000000000000000000000000000000⟩⟩,
  ⟨[⟨2247263858414845122707882247017, 2500000000000000000000000000000⟩, ⟨50547228317030975458423550596599, 1000000000000000000000000000000000⟩], ⟨1622924881159904015546296417089, 100000000000000000000000000000000⟩⟩,
  ⟨[⟨45929258829272315602881551449417, 100000000000000000000000000000000⟩, ⟨45929258829272315602881551449417, 100000000000000000000000000000000⟩], ⟨11886454283410578099237013048573, 250000000000000000000000000000000⟩⟩,
  ⟨[⟨45929258829272315602881551449417, 100000000000000000000000000000000⟩, ⟨4070741170727684397118448550583, 50000000000000000000000000000000⟩], ⟨11886454283410578099237013048573, 250000000000000000000000000000000⟩⟩,
  ⟨[⟨4070741170727684397118448550583, 50000000000000000000000000000000⟩, ⟨45929258829272315602881551449417, 100000000000000000000000000000000⟩], ⟨11886454283410578099237013048573, 250000000000000000000000000000000⟩⟩,
  ⟨[⟨36424619647770214062050018958803, 50000000000000000000000000000000⟩, ⟨1644455185216488208886161164279, 6250000000000000000000000000000⟩], ⟨27230314174434994264844690073909, 2000000000000000000000000000000000⟩⟩,
  ⟨[⟨36424619647770214062050018958803, 50000000000000000000000000000000⟩, ⟨83947774099576053372138345393, 10000000000000000000000000000000⟩], ⟨27230314174434994264844690073909, 2000000000000000000000000000000000⟩⟩,
  ⟨[⟨1644455185216488208886161164279, 6250000000000000000000000000000⟩, ⟨36424619647770214062050018958803, 50000000000000000000000000000000⟩], ⟨27230314174434994264844690073909, 2000000000000000000000000000000000⟩⟩,
  ⟨[⟨1644455185216488208886161164279, 6250000000000000000000000000000⟩, ⟨83947774099576053372138345393, 10000000000000000000000000000000⟩], ⟨27230314174434994264844690073909, 2000000000000000000000000000000000⟩⟩,
  ⟨[⟨83947774099576053372138345393, 10000000000000000000000000000000⟩, ⟨36424619647770214062050018958803, 50000000000000000000000000000000⟩], ⟨27230314174434994264844690073909, 2000000000000000000000000000000000⟩⟩,
  ⟨[⟨83947774099576053372138345393, 10000000000000000000000000000000⟩, ⟨1644455185216488208886161164279, 6250000000000000000000000000000⟩], ⟨27230314174434994264844690073909, 2000000000000000000000000000000000⟩⟩]⟩

/-- simplexquadrature.hh:381-439 -/
def block8 : Row := ⟨[19], 9, [
  ⟨[⟨333333333333333333333333333333333, 1000000000000000000000000000000000⟩, ⟨333333333333333333333333333333333, 1000000000000000000000000000000000⟩], ⟨97135796282798833819241982507289, 2000000000000000000000000000000000⟩⟩,
  ⟨[⟨48968251919873762778370692483619, 100000000000000000000000000000000⟩, ⟨48968251919873762778370692483619, 100000000000000000000000000000000⟩], ⟨31334700227139070536854831287209, 2000000000000000000000000000000000⟩⟩,
  ⟨[⟨48968251919873762778370692483619, 100000000000000000000000000000000⟩, ⟨1031748080126237221629307516381, 50000000000000000000000000000000⟩], ⟨31334700227139070536854831287209, 2000000000000000000000000000000000⟩⟩,
  ⟨[⟨1031748080126237221629307516381, 50000000000000000000000000000000⟩, ⟨48968251919873762778370692483619, 100000000000000000000000000000000⟩], ⟨31334700227139070536854831287209, 2000000000000000000000000000000000⟩⟩,
  ⟨[⟨8741791829858732745398607288707, 20000000000000000000000000000000⟩, ⟨8741791829858732745398607288707, 20000000000000000000000000000000⟩], ⟨19456885251193569829184839074851, 500000000000000000000000000000000⟩⟩,
  ⟨[⟨8741791829858732745398607288707, 20000000000000000000000000000000⟩, ⟨12582081701412672546013927112929, 100000000000000000000000000000000⟩], ⟨19456885251193569829184839074851, 500000000000000000000000000000000⟩⟩,
  ⟨[⟨12582081701412672546013927112929, 100000000000000000000000000000000⟩, ⟨8741791829858732745398607288707, 20000000000000000000000000000000⟩], ⟨19456885251193569829184839074851, 500000000000000000000000000000000⟩⟩,
  ⟨[⟨18820353561903273024096128046733, 100000000000000000000000000000000⟩, ⟨18820353561903273024096128046733, 100000000000000000000000000000000⟩], ⟨15929547785442050606578354852809, 400000000000000000000000000000000⟩⟩,
  ⟨[⟨18820353561903273024096128046733, 100000000000000000000000000000000⟩, ⟨62359292876193453951807743906533, 100000000000000000000000000000000⟩], ⟨15929547785442050606578354852809, 400000000000000000000000000000000⟩⟩,
  ⟨[⟨62359292876193453951807743906533, 100000000000000000000000000000000⟩, ⟨18820353561903273024096128046733, 100000000000000000000000000000000⟩], ⟨15929547785442050606578354852809, 400000000000000000000000000000000⟩⟩,
  ⟨[⟨11182378348613177466276647491569, 250000000000000000000000000000000⟩, ⟨11182378348613177466276647491569, 250000000000000000000000000000000⟩], ⟨25577675658698031261678798559, 2000000000000000000000000000000⟩⟩,
  ⟨[⟨11182378348613177466276647491569, 250000000000000000000000000000000⟩, ⟨18210819464221891605395736401349, 20000000000000000000000000000000⟩], ⟨25577675658698031261678798559, 2000000000000000000000000000000⟩⟩,
  ⟨[⟨18210819464221891605395736401349, 20000000000000000000000000000000⟩, ⟨11182378348613177466276647491569, 250000000000000000000000000000000⟩], ⟨25577675658698031261678798559, 2000000000000000000000000000000⟩⟩,
  ⟨[⟨37059929939224901034503993676171, 50000000000000000000000000000000⟩, ⟨7367682410947256726963519756677, 200000000000000000000000000000000⟩], ⟨43283539377289377289377289377289, 2000000000000000000000000000000000⟩⟩,
  ⟨[⟨37059929939224901034503993676171, 50000000000000000000000000000000⟩, ⟨22196298916076569567510252769319, 100000000000000000000000000000000⟩], ⟨43283539377289377289377289377289, 2000000000000000000000000000000000⟩⟩,
  ⟨[⟨7367682410947256726963519756677, 200000000000000000000000000000000⟩, ⟨37059929939224901034503993676171, 50000000000000000000000000000000⟩], ⟨43283539377289377289377289377289, 2000000000000000000000000000000000⟩⟩,
  ⟨[⟨7367682410947256726963519756677, 200000000000000000000000000000000⟩, ⟨22196298916076569567510252769319, 100000000000000000000000000000000⟩], ⟨43283539377289377289377289377289, 2000000000000000000000000000000000⟩⟩,
  ⟨[⟨22196298916076569567510252769319, 100000000000000000000000000000000⟩, ⟨37059929939224901034503993676171, 50000000000000000000000000000000⟩], ⟨43283539377289377289377289377289, 2000000000000000000000000000000000⟩⟩,
  ⟨[⟨22196298916076569567510252769319, 100000000000000000000000000000000⟩, ⟨7367682410947256726963519756677, 200000000000000000000000000000000⟩], ⟨43283539377289377289377289377289, 2000000000000000000000000000000000⟩⟩]⟩

/-- simplexquadrature.hh:451-527 -/
def block9 : Row := ⟨[25], 10, [
  ⟨[⟨333333333333333333333333333333333, 1000000000000000000000000000000000⟩, ⟨333333333333333333333333333333333, 1000000000000000000000000000000000⟩], ⟨39947252370619853915623522606693, 1000000000000000000000000000000000⟩⟩,
  ⟨[⟨10627155265052264324238237790951, 25000000000000000000000000000000⟩, ⟨10627155265052264324238237790951, 25000000000000000000000000000000⟩], ⟨35561901116188667319645643699329, 1000000000000000000000000000000000⟩⟩,
  ⟨[⟨10627155265052264324238237790951, 25000000000000000000000000000000⟩, ⟨14982757879581885406094097672391, 100000000000000000000000000000000⟩], ⟨35561901116188667319645643699329, 1000000000000000000000000000000000⟩⟩,
  ⟨[⟨14982757879581885406094097672391, 100000000000000000000000000000000⟩, ⟨10627155265052264324238237790951, 25000000000000000000000000000000⟩], ⟨35561901116188667319645643699329, 1000000000000000000000000000000000⟩⟩,
  ⟨[⟨1165443375500009535723319344799, 50000000000000000000000000000000⟩, ⟨1165443375500009535723319344799, 50000000000000000000000000000000⟩], ⟨82238186904641955186466203624719, 20000000000000000000000000000000000⟩⟩,
  ⟨[⟨1165443375500009535723319344799, 50000000000000000000000000000000⟩, ⟨23834556624499990464276680655201, 25000000000000000000000000000000⟩], ⟨82238186904641955186466203624719, 20000000000000000000000000000000000⟩⟩,
  ⟨[⟨23834556624499990464276680655201, 25000000000000000000000000000000⟩, ⟨1165443375500009535723319344799, 50000000000000000000000000000000⟩], ⟨82238186904641955186466203624719, 20000000000000000000000000000000000⟩⟩,
  ⟨[⟨62830740021349255642083766607883, 100000000000000000000000000000000⟩, ⟨1118834867884865031128432451341, 5000000000000000000000000000000⟩], ⟨45430592296170018007073629243933, 2000000000000000000000000000000000⟩⟩,
  ⟨[⟨62830740021349255642083766607883, 100000000000000000000000000000000⟩, ⟨924535163809590233459224022831, 6250000000000000000000000000000⟩], ⟨45430592296170018007073629243933, 2000000000000000000000000000000000⟩⟩,
  ⟨[⟨1118834867884865031128432451341, 5000000000000000000000000000000⟩, ⟨62830740021349255642083766607883, 100000000000000000000000000000000⟩], ⟨45430592296170018007073629243933, 2000000000000000000000000000000000⟩⟩,
  ⟨[⟨1118834867884865031128432451341, 5000000000000000000000000000000⟩, ⟨924535163809590233459224022831, 6250000000000000000000000000000⟩], ⟨45430592296170018007073629243933, 2000000000000000000000000000000000⟩⟩,
  ⟨[⟨924535163809590233459224022831, 6250000000000000000000000000000⟩, ⟨62830740021349255642083766607883, 100000000000000000000000000000000⟩], ⟨45430592296170018007073629243933, 2000000000000000000000000000000000⟩⟩,
  ⟨[⟨924535163809590233459224022831, 6250000000000000000000000000000⟩, ⟨1118834867884865031128432451341, 5000000000000000000000000000000⟩], ⟨45430592296170018007073629243933, 2000000000000000000000000000000000⟩⟩,
  ⟨[⟨6113138261813976489187550022539, 10000000000000000000000000000000⟩, ⟨7174802837288629291563106014477, 20000000000000000000000000000000⟩], ⟨1494394249372211073049459960079, 80000000000000000000000000000000⟩⟩,
  ⟨[⟨6113138261813976489187550022539, 10000000000000000000000000000000⟩, ⟨119784127816683546012358788089, 4000000000000000000000000000000⟩], ⟨1494394249372211073049459960079, 80000000000000000000000000000000⟩⟩,
  ⟨[⟨7174802837288629291563106014477, 20000000000000000000000000000000⟩, ⟨6113138261813976489187550022539, 10000000000000000000000000000000⟩], ⟨1494394249372211073049459960079, 80000000000000000000000000000000⟩⟩,
  ⟨[⟨7174802837288629291563106014477, 20000000000000000000000000000000⟩, ⟨119784127816683546012358788089, 4000000000000000000000000000000⟩], ⟨1494394249372211073049459960079, 80000000000000000000000000000000⟩⟩,
  ⟨[⟨119784127816683546012358788089, 4000000000000000000000000000000⟩, ⟨6113138261813976489187550022539, 10000000000000000000000000000000⟩], ⟨1494394249372211073049459960079, 80000000000000000000000000000000⟩⟩,
  ⟨[⟨119784127816683546012358788089, 4000000000000000000000000000000⟩, ⟨7174802837288629291563106014477, 20000000000000000000000000000000⟩], ⟨1494394249372211073049459960079, 80000000000000000000000000000000⟩⟩,
  ⟨[⟨41053603499281468668677220673609, 50000000000000000000000000000000⟩, ⟨3582384260671678632646415765433, 25000000000000000000000000000000⟩], ⟨30886656884563988782513077004629, 2000000000000000000000000000000000⟩⟩,
  ⟨[⟨41053603499281468668677220673609, 50000000000000000000000000000000⟩, ⟨71265119175006962641197911821, 2000000000000000000000000000000⟩], ⟨30886656884563988782513077004629, 2000000000000000000000000000000000⟩⟩,
  ⟨[⟨3582384260671678632646415765433, 25000000000000000000000000000000⟩, ⟨41053603499281468668677220673609, 50000000000000000000000000000000⟩], ⟨30886656884563988782513077004629, 2000000000000000000000000000000000⟩⟩,
  ⟨[⟨3582384260671678632646415765433, 25000000000000000000000000000000⟩, ⟨71265119175006962641197911821, 2000000000000000000000000000000⟩], ⟨30886656884563988782513077004629, 2000000000000000000000000000000000⟩⟩,
  ⟨[⟨71265119175006962641197911821, 2000000000000000000000000000000⟩, ⟨41053603499281468668677220673609, 50000000000000000000000000000000⟩], ⟨30886656884563988782513077004629, 2000000000000000000000000000000000⟩⟩,
  ⟨[⟨71265119175006962641197911821, 2000000000000000000000000000000⟩, ⟨3582384260671678632646415765433, 25000000000000000000000000000000⟩], ⟨30886656884563988782513077004629, 2000000000000000000000000000000000⟩⟩]⟩

/-- simplexquadrature.hh:539-632 -/
def block10 : Row := ⟨[28], 11, [
  ⟨[⟨858870281282636704039173938058347, 1000000000000000000000000000000000⟩, ⟨35282429679340823990206515485413, 250000000000000000000000000000000⟩], ⟨36811918916502771321294475236903, 10000000000000000000000000000000000⟩⟩,
  ⟨[⟨858870281282636704039173938058347, 1000000000000000000000000000000000⟩, ⟨0, 1⟩], ⟨36811918916502771321294475236903, 10000000000000000000000000000000000⟩⟩,
  ⟨[⟨35282429679340823990206515485413, 250000000000000000000000000000000⟩, ⟨858870281282636704039173938058347, 1000000000000000000000000000000000⟩], ⟨36811918916502771321294475236903, 10000000000000000000000000000000000⟩⟩,
  ⟨[⟨35282429679340823990206515485413, 250000000000000000000000000000000⟩, ⟨0, 1⟩], ⟨36811918916502771321294475236903, 10000000000000000000000000000000000⟩⟩,
  ⟨[⟨0, 1⟩, ⟨858870281282636704039173938058347, 1000000000000000000000000000000000⟩], ⟨36811918916502771321294475236903, 10000000000000000000000000000000000⟩⟩,
  ⟨[⟨0, 1⟩, ⟨35282429679340823990206515485413, 250000000000000000000000000000000⟩], ⟨36811918916502771321294475236903, 10000000000000000000000000000000000⟩⟩,
  ⟨[⟨333333333333333333333333333333333, 1000000000000000000000000000000000⟩, ⟨333333333333333333333333333333333, 1000000000000000000000000000000000⟩], ⟨5498581322639514924880823082591, 125000000000000000000000000000000⟩⟩,
  ⟨[⟨25989140928287395260032485498841, 1000000000000000000000000000000000⟩, ⟨25989140928287395260032485498841, 1000000000000000000000000000000000⟩], ⟨21860778884340057623791071999563, 5000000000000000000000000000000000⟩⟩,
  ⟨[⟨25989140928287395260032485498841, 1000000000000000000000000000000000⟩, ⟨11850271476792815118499187862529, 12500000000000000000000000000000⟩], ⟨21860778884340057623791071999563, 5000000000000000000000000000000000⟩⟩,
  ⟨[⟨11850271476792815118499187862529, 12500000000000000000000000000000⟩, ⟨25989140928287395260032485498841, 1000000000000000000000000000000000⟩], ⟨21860778884340057623791071999563, 5000000000000000000000000000000000⟩⟩,
  ⟨[⟨18857500529584499126113955255081, 200000000000000000000000000000000⟩, ⟨18857500529584499126113955255081, 200000000000000000000000000000000⟩], ⟨19040785996967468757512169717807, 1000000000000000000000000000000000⟩⟩,
  ⟨[⟨18857500529584499126113955255081, 200000000000000000000000000000000⟩, ⟨81142499470415500873886044744919, 100000000000000000000000000000000⟩], ⟨19040785996967468757512169717807, 1000000000000000000000000000000000⟩⟩,
  ⟨[⟨81142499470415500873886044744919, 100000000000000000000000000000000⟩, ⟨18857500529584499126113955255081, 200000000000000000000000000000000⟩], ⟨19040785996967468757512169717807, 1000000000000000000000000000000000⟩⟩,
  ⟨[⟨12365919375430345343540815057661, 25000000000000000000000000000000⟩, ⟨12365919375430345343540815057661, 25000000000000000000000000000000⟩], ⟨3771089611226258411695356518223, 400000000000000000000000000000000⟩⟩,
  ⟨[⟨12365919375430345343540815057661, 25000000000000000000000000000000⟩, ⟨1072644996557237251673479538713, 100000000000000000000000000000000⟩], ⟨3771089611226258411695356518223, 400000000000000000000000000000000⟩⟩,
  ⟨[⟨1072644996557237251673479538713, 100000000000000000000000000000000⟩, ⟨12365919375430345343540815057661, 25000000000000000000000000000000⟩], ⟨3771089611226258411695356518223, 400000000000000000000000000000000⟩⟩,
  ⟨[⟨20734338261451133345293402411297, 100000000000000000000000000000000⟩, ⟨20734338261451133345293402411297, 100000000000000000000000000000000⟩], ⟨72159697544739526124029988586463, 2000000000000000000000000000000000⟩⟩,
  ⟨[⟨20734338261451133345293402411297, 100000000000000000000000000000000⟩, ⟨58531323477097733309413195177407, 100000000000000000000000000000000⟩], ⟨72159697544739526124029988586463, 2000000000000000000000000000000000⟩⟩,
  ⟨[⟨58531323477097733309413195177407, 100000000000000000000000000000000⟩, ⟨20734338261451133345293402411297, 100000000000000000000000000000000⟩], ⟨72159697544739526124029988586463, 2000000000000000000000000000000000⟩⟩,
  ⟨[⟨43890780570049209506106538163613, 100000000000000000000000000000000⟩, ⟨43890780570049209506106538163613, 100000000000000000000000000000000⟩], ⟨34664569352767949920882825451907, 1000000000000000000000000000000000⟩⟩,
  ⟨[⟨43890780570049209506106538163613, 100000000000000000000000000000000⟩, ⟨488737554396063239511476946911, 4000000000000000000000000000000⟩], ⟨34664569352767949920882825451907, 1000000000000000000000000000000000⟩⟩,
  ⟨[⟨488737554396063239511476946911, 4000000000000000000000000000000⟩, ⟨43890780570049209506106538163613, 100000000000000000000000000000000⟩], ⟨34664569352767949920882825451907, 1000000000000000000000000000000000⟩⟩,
  ⟨[⟨542350123906072321233700912951, 800000000000000000000000000000⟩, ⟨44841677589130443309052391468801, 1000000000000000000000000000000000⟩], ⟨20528157714644283320826157453647, 1000000000000000000000000000000000⟩⟩,
  ⟨[⟨542350123906072321233700912951, 800000000000000000000000000000⟩, ⟨5544413350565583102976429346849, 20000000000000000000000000000000⟩], ⟨20528157714644283320826157453647, 1000000000000000000000000000000000⟩⟩,
  ⟨[⟨44841677589130443309052391468801, 1000000000000000000000000000000000⟩, ⟨542350123906072321233700912951, 800000000000000000000000000000⟩], ⟨20528157714644283320826157453647, 1000000000000000000000000000000000⟩⟩,
  ⟨[⟨44841677589130443309052391468801, 1000000000000000000000000000000000⟩, ⟨5544413350565583102976429346849, 20000000000000000000000000000000⟩], ⟨20528157714644283320826157453647, 1000000000000000000000000000000000⟩⟩,
  ⟨[⟨5544413350565583102976429346849, 20000000000000000000000000000000⟩, ⟨542350123906072321233700912951, 800000000000000000000000000000⟩], ⟨20528157714644283320826157453647, 1000000000000000000000000000000000⟩⟩,
  ⟨[⟨5544413350565583102976429346849, 20000000000000000000000000000000⟩, ⟨44841677589130443309052391468801, 1000000000000000000000000000000000⟩], ⟨20528157714644283320826157453647, 1000000000000000000000000000000000⟩⟩]⟩

/-- simplexquadrature.hh:644-744 -/
def block11 : Row := ⟨[33], 12, [
  ⟨[⟨2356522045239, 100000000000000⟩, ⟨97643477954761, 200000000000000⟩], ⟨5146213288091, 400000000000000⟩⟩,
  ⟨[⟨97643477954761, 200000000000000⟩, ⟨2356522045239, 100000000000000⟩], ⟨5146213288091, 400000000000000⟩⟩,
  ⟨[⟨97643477954761, 200000000000000⟩, ⟨97643477954761, 200000000000000⟩], ⟨5146213288091, 400000000000000⟩⟩,
  ⟨[⟨21986219614723, 50000000000000⟩, ⟨21986219614723, 50000000000000⟩], ⟨21846272269019, 1000000000000000⟩⟩,
  ⟨[⟨21986219614723, 50000000000000⟩, ⟨120551215411079, 1000000000000000⟩], ⟨21846272269019, 1000000000000000⟩⟩,
  ⟨[⟨120551215411079, 1000000000000000⟩, ⟨21986219614723, 50000000000000⟩], ⟨21846272269019, 1000000000000000⟩⟩,
  ⟨[⟨67802596253029, 250000000000000⟩, ⟨67802596253029, 250000000000000⟩], ⟨12571644843577, 400000000000000⟩⟩,
  ⟨[⟨67802596253029, 250000000000000⟩, ⟨57197403746971, 125000000000000⟩], ⟨12571644843577, 400000000000000⟩⟩,
  ⟨[⟨57197403746971, 125000000000000⟩, ⟨67802596253029, 250000000000000⟩], ⟨12571644843577, 400000000000000⟩⟩,
  ⟨[⟨63788072770793, 500000000000000⟩, ⟨63788072770793, 500000000000000⟩], ⟨34796112930709, 2000000000000000⟩⟩,
  ⟨[⟨63788072770793, 500000000000000⟩, ⟨7448477089168279, 10000000000000000⟩], ⟨34796112930709, 2000000000000000⟩⟩,
  ⟨[⟨7448477089168279, 10000000000000000⟩, ⟨63788072770793, 500000000000000⟩], ⟨34796112930709, 2000000000000000⟩⟩,
  ⟨[⟨2131735045321, 100000000000000⟩, ⟨2131735045321, 100000000000000⟩], ⟨6166261051559, 2000000000000000⟩⟩,
  ⟨[⟨2131735045321, 100000000000000⟩, ⟨9573652990935799, 10000000000000000⟩], ⟨6166261051559, 2000000000000000⟩⟩,
  ⟨[⟨9573652990935799, 10000000000000000⟩, ⟨2131735045321, 100000000000000⟩], ⟨6166261051559, 2000000000000000⟩⟩,
  ⟨[⟨57671747267349, 500000000000000⟩, ⟨137856634842757, 500000000000000⟩], ⟨40371557766381, 2000000000000000⟩⟩,
  ⟨[⟨57671747267349, 500000000000000⟩, ⟨6089432357797879, 10000000000000000⟩], ⟨40371557766381, 2000000000000000⟩⟩,
  ⟨[⟨137856634842757, 500000000000000⟩, ⟨57671747267349, 500000000000000⟩], ⟨40371557766381, 2000000000000000⟩⟩,
  ⟨[⟨137856634842757, 500000000000000⟩, ⟨6089432357797879, 10000000000000000⟩], ⟨40371557766381, 2000000000000000⟩⟩,
  ⟨[⟨6089432357797879, 10000000000000000⟩, ⟨57671747267349, 500000000000000⟩], ⟨40371557766381, 2000000000000000⟩⟩,
  ⟨[⟨6089432357797879, 10000000000000000⟩, ⟨137856634842757, 500000000000000⟩], ⟨40371557766381, 2000000000000000⟩⟩,
  ⟨[⟨22838332222257, 1000000000000000⟩, ⟨14066279049497, 50000000000000⟩], ⟨22356773202303, 2000000000000000⟩⟩,
  ⟨[⟨22838332222257, 1000000000000000⟩, ⟨6958360867878031, 10000000000000000⟩], ⟨22356773202303, 2000000000000000⟩⟩,
  ⟨[⟨14066279049497, 50000000000000⟩, ⟨22838332222257, 1000000000000000⟩], ⟨22356773202303, 2000000000000000⟩⟩,
  ⟨[⟨14066279049497, 50000000000000⟩, ⟨6958360867878031, 10000000000000000⟩], ⟨22356773202303, 2000000000000000⟩⟩,
  ⟨[⟨6958360867878031, 10000000000000000⟩, ⟨22838332222257, 1000000000000000⟩], ⟨22356773202303, 2000000000000000⟩⟩,
  ⟨[⟨6958360867878031, 10000000000000000⟩, ⟨14066279049497, 50000000000000⟩], ⟨22356773202303, 2000000000000000⟩⟩,
  ⟨[⟨2573405054833, 100000000000000⟩, ⟨116251915907597, 1000000000000000⟩], ⟨17316231108659, 2000000000000000⟩⟩,
  ⟨[⟨2573405054833, 100000000000000⟩, ⟨858014033544073, 1000000000000000⟩], ⟨17316231108659, 2000000000000000⟩⟩,
  ⟨[⟨116251915907597, 1000000000000000⟩, ⟨2573405054833, 100000000000000⟩], ⟨17316231108659, 2000000000000000⟩⟩,
  ⟨[⟨116251915907597, 1000000000000000⟩, ⟨858014033544073, 1000000000000000⟩], ⟨17316231108659, 2000000000000000⟩⟩,
  ⟨[⟨858014033544073, 1000000000000000⟩, ⟨2573405054833, 100000000000000⟩], ⟨17316231108659, 2000000000000000⟩⟩,
  ⟨[⟨858014033544073, 1000000000000000⟩, ⟨116251915907597, 1000000000000000⟩], ⟨17316231108659, 2000000000000000⟩⟩]⟩

/-- the blocks in program order; a later block with the same `m` overwrites an earlier one -/
def blocks : List Row := [block0, block1, block2, block3, block4, block5, block6, block7, block8, block9, block10, block11]

end Verif.Quad.Simplex2
