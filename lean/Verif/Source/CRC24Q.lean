import Verif.PyCore.Syntax

/-!
# utilities/CRC24Q.py

Generated by fidelity/embed.py from the text of the module.
-/

namespace Verif
namespace PyCore
namespace Src

/-- `CRC24Q.calc`, utilities/CRC24Q.py:276-283. -/
def fn_CRC24Q_calc : FnDef where
  params := [n!"cls", n!"data"]
  defaults := []
  body := [
    .assign (.name n!"crc") (.call (.name n!"int") [.const (.int 0)]),
    .for (.name n!"d") (.name n!"data") [
      .assign (.name n!"crc") (.bin .bxor (.bin .band (.bin .shl (.name n!"crc") (.const (.int 8))) (.const (.int 16777215))) (.index (.attr (.name n!"cls") n!"_crc_tab") (.bin .bxor (.bin .shr (.name n!"crc") (.const (.int 16))) (.name n!"d"))))] [],
    .ret (.name n!"crc")]

/-- `CRC24Q`, utilities/CRC24Q.py:13-283. -/
def cls_CRC24Q : ClassDef where
  mro := [n!"CRC24Q"]
  members := [(n!"_crc_tab", .value (.list [.const (.int 0), .const (.int 8801531), .const (.int 9098509), .const (.int 825846), .const (.int 9692897), .const (.int 1419802), .const (.int 1651692), .const (.int 10452759), .const (.int 10584377), .const (.int 2608578), .const (.int 2839604), .const (.int 11344079), .const (.int 3303384), .const (.int 11807523), .const (.int 12104405), .const (.int 4128302), .const (.int 12930697), .const (.int 4391538), .const (.int 5217156), .const (.int 13227903), .const (.int 5679208), .const (.int 13690003), .const (.int 14450021), .const (.int 5910942), .const (.int 6606768), .const (.int 14844747), .const (.int 15604413), .const (.int 6837830), .const (.int 16197969), .const (.int 7431594), .const (.int 8256604), .const (.int 16494759), .const (.int 840169), .const (.int 9084178), .const (.int 8783076), .const (.int 18463), .const (.int 10434312), .const (.int 1670131), .const (.int 1434117), .const (.int 9678590), .const (.int 11358416), .const (.int 2825259), .const (.int 2590173), .const (.int 10602790), .const (.int 4109873), .const (.int 12122826), .const (.int 11821884), .const (.int 3289031), .const (.int 13213536), .const (.int 5231515), .const (.int 4409965), .const (.int 12912278), .const (.int 5929345), .const (.int 14431610), .const (.int 13675660), .const (.int 5693559), .const (.int 6823513), .const (.int 15618722), .const (.int 14863188), .const (.int 6588335), .const (.int 16513208), .const (.int 8238147), .const (.int 7417269), .const (.int 16212302), .const (.int 1680338), .const (.int 10481449), .const (.int 9664223), .const (.int 1391140), .const (.int 9061683), .const (.int 788936), .const (.int 36926), .const (.int 8838341), .const (.int 12067563), .const (.int 4091408), .const (.int 3340262), .const (.int 11844381), .const (.int 2868234), .const (.int 11372785), .const (.int 10555655), .const (.int 2579964), .const (.int 14478683), .const (.int 5939616), .const (.int 5650518), .const (.int 13661357), .const (.int 5180346), .const (.int 13190977), .const (.int 12967607), .const (.int 4428364), .const (.int 8219746), .const (.int 16457881), .const (.int 16234863), .const (.int 7468436), .const (.int 15633027), .const (.int 6866552), .const (.int 6578062), .const (.int 14816117), .const (.int 1405499), .const (.int 9649856), .const (.int 10463030), .const (.int 1698765), .const (.int 8819930), .const (.int 55329), .const (.int 803287), .const (.int 9047340), .const (.int 11858690), .const (.int 3325945), .const (.int 4072975), .const (.int 12086004), .const (.int 2561507), .const (.int 10574104), .const (.int 11387118), .const (.int 2853909), .const (.int 13647026), .const (.int 5664841), .const (.int 5958079), .const (.int 14460228), .const (.int 4446803), .const (.int 12949160), .const (.int 13176670), .const (.int 5194661), .const (.int 7454091), .const (.int 16249200), .const (.int 16476294), .const (.int 8201341), .const (.int 14834538), .const (.int 6559633), .const (.int 6852199), .const (.int 15647388), .const (.int 3360676), .const (.int 11864927), .const (.int 12161705), .const (.int 4185682), .const (.int 10527045), .const (.int 2551230), .const (.int 2782280), .const (.int 11286707), .const (.int 9619101), .const (.int 1346150), .const (.int 1577872), .const (.int 10379115), .const (.int 73852), .const (.int 8875143), .const (.int 9172337), .const (.int 899466), .const (.int 16124205), .const (.int 7357910), .const (.int 8182816), .const (.int 16421083), .const (.int 6680524), .const (.int 14918455), .const (.int 15678145), .const (.int 6911546), .const (.int 5736468), .const (.int 13747439), .const (.int 14507289), .const (.int 5968354), .const (.int 12873461), .const (.int 4334094), .const (.int 5159928), .const (.int 13170435), .const (.int 4167245), .const (.int 12180150), .const (.int 11879232), .const (.int 3346363), .const (.int 11301036), .const (.int 2767959), .const (.int 2532769), .const (.int 10545498), .const (.int 10360692), .const (.int 1596303), .const (.int 1360505), .const (.int 9604738), .const (.int 913813), .const (.int 9157998), .const (.int 8856728), .const (.int 92259), .const (.int 16439492), .const (.int 8164415), .const (.int 7343561), .const (.int 16138546), .const (.int 6897189), .const (.int 15692510), .const (.int 14936872), .const (.int 6662099), .const (.int 5986813), .const (.int 14488838), .const (.int 13733104), .const (.int 5750795), .const (.int 13156124), .const (.int 5174247), .const (.int 4352529), .const (.int 12855018), .const (.int 2810998), .const (.int 11315341), .const (.int 10498427), .const (.int 2522496), .const (.int 12124823), .const (.int 4148844), .const (.int 3397530), .const (.int 11901793), .const (.int 9135439), .const (.int 862644), .const (.int 110658), .const (.int 8912057), .const (.int 1606574), .const (.int 10407765), .const (.int 9590435), .const (.int 1317464), .const (.int 15706879), .const (.int 6940164), .const (.int 6651890), .const (.int 14889737), .const (.int 8145950), .const (.int 16384229), .const (.int 16161043), .const (.int 7394792), .const (.int 5123014), .const (.int 13133629), .const (.int 12910283), .const (.int 4370992), .const (.int 14535975), .const (.int 5997020), .const (.int 5707818), .const (.int 13718737), .const (.int 2504095), .const (.int 10516836), .const (.int 11329682), .const (.int 2796649), .const (.int 11916158), .const (.int 3383173), .const (.int 4130419), .const (.int 12143240), .const (.int 8893606), .const (.int 129117), .const (.int 876971), .const (.int 9121104), .const (.int 1331783), .const (.int 9576124), .const (.int 10389322), .const (.int 1625009), .const (.int 14908182), .const (.int 6633453), .const (.int 6925851), .const (.int 15721184), .const (.int 7380471), .const (.int 16175372), .const (.int 16402682), .const (.int 8127489), .const (.int 4389423), .const (.int 12891860), .const (.int 13119266), .const (.int 5137369), .const (.int 13704398), .const (.int 5722165), .const (.int 6015427), .const (.int 14517560)])),
    (n!"calc", .clsMethod n!"CRC24Q.calc")]
  fields := []
  isData := false
  isExc := false

end Src
end PyCore
end Verif
