/-! Generated by tools/gen_huffman.py from /repo/huffman/assets/hpack-huffman.txt. Do not edit. -/
namespace Verif.Huffman

/-- The lines of /repo/huffman/assets/hpack-huffman.txt:1-257. Each line is one numeral whose base-256 digits are
the bytes of the line, preceded by a digit 1 so that the length is determined. -/
def ASSET_LINES : List Nat := [
  0x0120202020282020302920207c31313131313131317c313130303020202020202020202020202020202020202020202020202020202020203166663820205b31335d,
  0x0120202020282020312920207c31313131313131317c31313131313131317c313031313030302020202020202020202020202020202037666666643820205b32335d,
  0x0120202020282020322920207c31313131313131317c31313131313131317c31313131313131307c303031302020202020202020206666666666653220205b32385d,
  0x0120202020282020332920207c31313131313131317c31313131313131317c31313131313131307c303031312020202020202020206666666666653320205b32385d,
  0x0120202020282020342920207c31313131313131317c31313131313131317c31313131313131307c303130302020202020202020206666666666653420205b32385d,
  0x0120202020282020352920207c31313131313131317c31313131313131317c31313131313131307c303130312020202020202020206666666666653520205b32385d,
  0x0120202020282020362920207c31313131313131317c31313131313131317c31313131313131307c303131302020202020202020206666666666653620205b32385d,
  0x0120202020282020372920207c31313131313131317c31313131313131317c31313131313131307c303131312020202020202020206666666666653720205b32385d,
  0x0120202020282020382920207c31313131313131317c31313131313131317c31313131313131307c313030302020202020202020206666666666653820205b32385d,
  0x0120202020282020392920207c31313131313131317c31313131313131317c313131303130313020202020202020202020202020202066666666656120205b32345d,
  0x0120202020282031302920207c31313131313131317c31313131313131317c31313131313131317c313131313030202020202020336666666666666320205b33305d,
  0x0120202020282031312920207c31313131313131317c31313131313131317c31313131313131307c313030312020202020202020206666666666653920205b32385d,
  0x0120202020282031322920207c31313131313131317c31313131313131317c31313131313131307c313031302020202020202020206666666666656120205b32385d,
  0x0120202020282031332920207c31313131313131317c31313131313131317c31313131313131317c313131313031202020202020336666666666666420205b33305d,
  0x0120202020282031342920207c31313131313131317c31313131313131317c31313131313131307c313031312020202020202020206666666666656220205b32385d,
  0x0120202020282031352920207c31313131313131317c31313131313131317c31313131313131307c313130302020202020202020206666666666656320205b32385d,
  0x0120202020282031362920207c31313131313131317c31313131313131317c31313131313131307c313130312020202020202020206666666666656420205b32385d,
  0x0120202020282031372920207c31313131313131317c31313131313131317c31313131313131307c313131302020202020202020206666666666656520205b32385d,
  0x0120202020282031382920207c31313131313131317c31313131313131317c31313131313131307c313131312020202020202020206666666666656620205b32385d,
  0x0120202020282031392920207c31313131313131317c31313131313131317c31313131313131317c303030302020202020202020206666666666663020205b32385d,
  0x0120202020282032302920207c31313131313131317c31313131313131317c31313131313131317c303030312020202020202020206666666666663120205b32385d,
  0x0120202020282032312920207c31313131313131317c31313131313131317c31313131313131317c303031302020202020202020206666666666663220205b32385d,
  0x0120202020282032322920207c31313131313131317c31313131313131317c31313131313131317c313131313130202020202020336666666666666520205b33305d,
  0x0120202020282032332920207c31313131313131317c31313131313131317c31313131313131317c303031312020202020202020206666666666663320205b32385d,
  0x0120202020282032342920207c31313131313131317c31313131313131317c31313131313131317c303130302020202020202020206666666666663420205b32385d,
  0x0120202020282032352920207c31313131313131317c31313131313131317c31313131313131317c303130312020202020202020206666666666663520205b32385d,
  0x0120202020282032362920207c31313131313131317c31313131313131317c31313131313131317c303131302020202020202020206666666666663620205b32385d,
  0x0120202020282032372920207c31313131313131317c31313131313131317c31313131313131317c303131312020202020202020206666666666663720205b32385d,
  0x0120202020282032382920207c31313131313131317c31313131313131317c31313131313131317c313030302020202020202020206666666666663820205b32385d,
  0x0120202020282032392920207c31313131313131317c31313131313131317c31313131313131317c313030312020202020202020206666666666663920205b32385d,
  0x0120202020282033302920207c31313131313131317c31313131313131317c31313131313131317c313031302020202020202020206666666666666120205b32385d,
  0x0120202020282033312920207c31313131313131317c31313131313131317c31313131313131317c313031312020202020202020206666666666666220205b32385d,
  0x0127202720282033322920207c303130313030202020202020202020202020202020202020202020202020202020202020202020202020202020313420205b20365d,
  0x0127212720282033332920207c31313131313131307c303020202020202020202020202020202020202020202020202020202020202020202033663820205b31305d,
  0x0127222720282033342920207c31313131313131307c303120202020202020202020202020202020202020202020202020202020202020202033663920205b31305d,
  0x0127232720282033352920207c31313131313131317c313031302020202020202020202020202020202020202020202020202020202020202066666120205b31325d,
  0x0127242720282033362920207c31313131313131317c313130303120202020202020202020202020202020202020202020202020202020203166663920205b31335d,
  0x0127252720282033372920207c303130313031202020202020202020202020202020202020202020202020202020202020202020202020202020313520205b20365d,
  0x0127262720282033382920207c313131313130303020202020202020202020202020202020202020202020202020202020202020202020202020663820205b20385d,
  0x0127272720282033392920207c31313131313131317c303130202020202020202020202020202020202020202020202020202020202020202037666120205b31315d,
  0x0127282720282034302920207c31313131313131307c313020202020202020202020202020202020202020202020202020202020202020202033666120205b31305d,
  0x0127292720282034312920207c31313131313131307c313120202020202020202020202020202020202020202020202020202020202020202033666220205b31305d,
  0x01272a2720282034322920207c313131313130303120202020202020202020202020202020202020202020202020202020202020202020202020663920205b20385d,
  0x01272b2720282034332920207c31313131313131317c303131202020202020202020202020202020202020202020202020202020202020202037666220205b31315d,
  0x01272c2720282034342920207c313131313130313020202020202020202020202020202020202020202020202020202020202020202020202020666120205b20385d,
  0x01272d2720282034352920207c303130313130202020202020202020202020202020202020202020202020202020202020202020202020202020313620205b20365d,
  0x01272e2720282034362920207c303130313131202020202020202020202020202020202020202020202020202020202020202020202020202020313720205b20365d,
  0x01272f2720282034372920207c303131303030202020202020202020202020202020202020202020202020202020202020202020202020202020313820205b20365d,
  0x0127302720282034382920207c303030303020202020202020202020202020202020202020202020202020202020202020202020202020202020203020205b20355d,
  0x0127312720282034392920207c303030303120202020202020202020202020202020202020202020202020202020202020202020202020202020203120205b20355d,
  0x0127322720282035302920207c303030313020202020202020202020202020202020202020202020202020202020202020202020202020202020203220205b20355d,
  0x0127332720282035312920207c303131303031202020202020202020202020202020202020202020202020202020202020202020202020202020313920205b20365d,
  0x0127342720282035322920207c303131303130202020202020202020202020202020202020202020202020202020202020202020202020202020316120205b20365d,
  0x0127352720282035332920207c303131303131202020202020202020202020202020202020202020202020202020202020202020202020202020316220205b20365d,
  0x0127362720282035342920207c303131313030202020202020202020202020202020202020202020202020202020202020202020202020202020316320205b20365d,
  0x0127372720282035352920207c303131313031202020202020202020202020202020202020202020202020202020202020202020202020202020316420205b20365d,
  0x0127382720282035362920207c303131313130202020202020202020202020202020202020202020202020202020202020202020202020202020316520205b20365d,
  0x0127392720282035372920207c303131313131202020202020202020202020202020202020202020202020202020202020202020202020202020316620205b20365d,
  0x01273a2720282035382920207c313031313130302020202020202020202020202020202020202020202020202020202020202020202020202020356320205b20375d,
  0x01273b2720282035392920207c313131313130313120202020202020202020202020202020202020202020202020202020202020202020202020666220205b20385d,
  0x01273c2720282036302920207c31313131313131317c313131313130302020202020202020202020202020202020202020202020202020203766666320205b31355d,
  0x01273d2720282036312920207c313030303030202020202020202020202020202020202020202020202020202020202020202020202020202020323020205b20365d,
  0x01273e2720282036322920207c31313131313131317c313031312020202020202020202020202020202020202020202020202020202020202066666220205b31325d,
  0x01273f2720282036332920207c31313131313131317c303020202020202020202020202020202020202020202020202020202020202020202033666320205b31305d,
  0x0127402720282036342920207c31313131313131317c313130313020202020202020202020202020202020202020202020202020202020203166666120205b31335d,
  0x0127412720282036352920207c313030303031202020202020202020202020202020202020202020202020202020202020202020202020202020323120205b20365d,
  0x0127422720282036362920207c313031313130312020202020202020202020202020202020202020202020202020202020202020202020202020356420205b20375d,
  0x0127432720282036372920207c313031313131302020202020202020202020202020202020202020202020202020202020202020202020202020356520205b20375d,
  0x0127442720282036382920207c313031313131312020202020202020202020202020202020202020202020202020202020202020202020202020356620205b20375d,
  0x0127452720282036392920207c313130303030302020202020202020202020202020202020202020202020202020202020202020202020202020363020205b20375d,
  0x0127462720282037302920207c313130303030312020202020202020202020202020202020202020202020202020202020202020202020202020363120205b20375d,
  0x0127472720282037312920207c313130303031302020202020202020202020202020202020202020202020202020202020202020202020202020363220205b20375d,
  0x0127482720282037322920207c313130303031312020202020202020202020202020202020202020202020202020202020202020202020202020363320205b20375d,
  0x0127492720282037332920207c313130303130302020202020202020202020202020202020202020202020202020202020202020202020202020363420205b20375d,
  0x01274a2720282037342920207c313130303130312020202020202020202020202020202020202020202020202020202020202020202020202020363520205b20375d,
  0x01274b2720282037352920207c313130303131302020202020202020202020202020202020202020202020202020202020202020202020202020363620205b20375d,
  0x01274c2720282037362920207c313130303131312020202020202020202020202020202020202020202020202020202020202020202020202020363720205b20375d,
  0x01274d2720282037372920207c313130313030302020202020202020202020202020202020202020202020202020202020202020202020202020363820205b20375d,
  0x01274e2720282037382920207c313130313030312020202020202020202020202020202020202020202020202020202020202020202020202020363920205b20375d,
  0x01274f2720282037392920207c313130313031302020202020202020202020202020202020202020202020202020202020202020202020202020366120205b20375d,
  0x0127502720282038302920207c313130313031312020202020202020202020202020202020202020202020202020202020202020202020202020366220205b20375d,
  0x0127512720282038312920207c313130313130302020202020202020202020202020202020202020202020202020202020202020202020202020366320205b20375d,
  0x0127522720282038322920207c313130313130312020202020202020202020202020202020202020202020202020202020202020202020202020366420205b20375d,
  0x0127532720282038332920207c313130313131302020202020202020202020202020202020202020202020202020202020202020202020202020366520205b20375d,
  0x0127542720282038342920207c313130313131312020202020202020202020202020202020202020202020202020202020202020202020202020366620205b20375d,
  0x0127552720282038352920207c313131303030302020202020202020202020202020202020202020202020202020202020202020202020202020373020205b20375d,
  0x0127562720282038362920207c313131303030312020202020202020202020202020202020202020202020202020202020202020202020202020373120205b20375d,
  0x0127572720282038372920207c313131303031302020202020202020202020202020202020202020202020202020202020202020202020202020373220205b20375d,
  0x0127582720282038382920207c313131313131303020202020202020202020202020202020202020202020202020202020202020202020202020666320205b20385d,
  0x0127592720282038392920207c313131303031312020202020202020202020202020202020202020202020202020202020202020202020202020373320205b20375d,
  0x01275a2720282039302920207c313131313131303120202020202020202020202020202020202020202020202020202020202020202020202020666420205b20385d,
  0x01275b2720282039312920207c31313131313131317c313130313120202020202020202020202020202020202020202020202020202020203166666220205b31335d,
  0x01275c2720282039322920207c31313131313131317c31313131313131307c303030202020202020202020202020202020202020202020376666663020205b31395d,
  0x01275d2720282039332920207c31313131313131317c313131303020202020202020202020202020202020202020202020202020202020203166666320205b31335d,
  0x01275e2720282039342920207c31313131313131317c313131313030202020202020202020202020202020202020202020202020202020203366666320205b31345d,
  0x01275f2720282039352920207c313030303130202020202020202020202020202020202020202020202020202020202020202020202020202020323220205b20365d,
  0x0127602720282039362920207c31313131313131317c313131313130312020202020202020202020202020202020202020202020202020203766666420205b31355d,
  0x0127612720282039372920207c303030313120202020202020202020202020202020202020202020202020202020202020202020202020202020203320205b20355d,
  0x0127622720282039382920207c313030303131202020202020202020202020202020202020202020202020202020202020202020202020202020323320205b20365d,
  0x0127632720282039392920207c303031303020202020202020202020202020202020202020202020202020202020202020202020202020202020203420205b20355d,
  0x0127642720283130302920207c313030313030202020202020202020202020202020202020202020202020202020202020202020202020202020323420205b20365d,
  0x0127652720283130312920207c303031303120202020202020202020202020202020202020202020202020202020202020202020202020202020203520205b20355d,
  0x0127662720283130322920207c313030313031202020202020202020202020202020202020202020202020202020202020202020202020202020323520205b20365d,
  0x0127672720283130332920207c313030313130202020202020202020202020202020202020202020202020202020202020202020202020202020323620205b20365d,
  0x0127682720283130342920207c313030313131202020202020202020202020202020202020202020202020202020202020202020202020202020323720205b20365d,
  0x0127692720283130352920207c303031313020202020202020202020202020202020202020202020202020202020202020202020202020202020203620205b20355d,
  0x01276a2720283130362920207c313131303130302020202020202020202020202020202020202020202020202020202020202020202020202020373420205b20375d,
  0x01276b2720283130372920207c313131303130312020202020202020202020202020202020202020202020202020202020202020202020202020373520205b20375d,
  0x01276c2720283130382920207c313031303030202020202020202020202020202020202020202020202020202020202020202020202020202020323820205b20365d,
  0x01276d2720283130392920207c313031303031202020202020202020202020202020202020202020202020202020202020202020202020202020323920205b20365d,
  0x01276e2720283131302920207c313031303130202020202020202020202020202020202020202020202020202020202020202020202020202020326120205b20365d,
  0x01276f2720283131312920207c303031313120202020202020202020202020202020202020202020202020202020202020202020202020202020203720205b20355d,
  0x0127702720283131322920207c313031303131202020202020202020202020202020202020202020202020202020202020202020202020202020326220205b20365d,
  0x0127712720283131332920207c313131303131302020202020202020202020202020202020202020202020202020202020202020202020202020373620205b20375d,
  0x0127722720283131342920207c313031313030202020202020202020202020202020202020202020202020202020202020202020202020202020326320205b20365d,
  0x0127732720283131352920207c303130303020202020202020202020202020202020202020202020202020202020202020202020202020202020203820205b20355d,
  0x0127742720283131362920207c303130303120202020202020202020202020202020202020202020202020202020202020202020202020202020203920205b20355d,
  0x0127752720283131372920207c313031313031202020202020202020202020202020202020202020202020202020202020202020202020202020326420205b20365d,
  0x0127762720283131382920207c313131303131312020202020202020202020202020202020202020202020202020202020202020202020202020373720205b20375d,
  0x0127772720283131392920207c313131313030302020202020202020202020202020202020202020202020202020202020202020202020202020373820205b20375d,
  0x0127782720283132302920207c313131313030312020202020202020202020202020202020202020202020202020202020202020202020202020373920205b20375d,
  0x0127792720283132312920207c313131313031302020202020202020202020202020202020202020202020202020202020202020202020202020376120205b20375d,
  0x01277a2720283132322920207c313131313031312020202020202020202020202020202020202020202020202020202020202020202020202020376220205b20375d,
  0x01277b2720283132332920207c31313131313131317c313131313131302020202020202020202020202020202020202020202020202020203766666520205b31355d,
  0x01277c2720283132342920207c31313131313131317c313030202020202020202020202020202020202020202020202020202020202020202037666320205b31315d,
  0x01277d2720283132352920207c31313131313131317c313131313031202020202020202020202020202020202020202020202020202020203366666420205b31345d,
  0x01277e2720283132362920207c31313131313131317c313131303120202020202020202020202020202020202020202020202020202020203166666420205b31335d,
  0x0120202020283132372920207c31313131313131317c31313131313131317c31313131313131317c313130302020202020202020206666666666666320205b32385d,
  0x0120202020283132382920207c31313131313131317c31313131313131307c303131302020202020202020202020202020202020202020666666653620205b32305d,
  0x0120202020283132392920207c31313131313131317c31313131313131317c303130303130202020202020202020202020202020202033666666643220205b32325d,
  0x0120202020283133302920207c31313131313131317c31313131313131307c303131312020202020202020202020202020202020202020666666653720205b32305d,
  0x0120202020283133312920207c31313131313131317c31313131313131307c313030302020202020202020202020202020202020202020666666653820205b32305d,
  0x0120202020283133322920207c31313131313131317c31313131313131317c303130303131202020202020202020202020202020202033666666643320205b32325d,
  0x0120202020283133332920207c31313131313131317c31313131313131317c303130313030202020202020202020202020202020202033666666643420205b32325d,
  0x0120202020283133342920207c31313131313131317c31313131313131317c303130313031202020202020202020202020202020202033666666643520205b32325d,
  0x0120202020283133352920207c31313131313131317c31313131313131317c313031313030312020202020202020202020202020202037666666643920205b32335d,
  0x0120202020283133362920207c31313131313131317c31313131313131317c303130313130202020202020202020202020202020202033666666643620205b32325d,
  0x0120202020283133372920207c31313131313131317c31313131313131317c313031313031302020202020202020202020202020202037666666646120205b32335d,
  0x0120202020283133382920207c31313131313131317c31313131313131317c313031313031312020202020202020202020202020202037666666646220205b32335d,
  0x0120202020283133392920207c31313131313131317c31313131313131317c313031313130302020202020202020202020202020202037666666646320205b32335d,
  0x0120202020283134302920207c31313131313131317c31313131313131317c313031313130312020202020202020202020202020202037666666646420205b32335d,
  0x0120202020283134312920207c31313131313131317c31313131313131317c313031313131302020202020202020202020202020202037666666646520205b32335d,
  0x0120202020283134322920207c31313131313131317c31313131313131317c313131303130313120202020202020202020202020202066666666656220205b32345d,
  0x0120202020283134332920207c31313131313131317c31313131313131317c313031313131312020202020202020202020202020202037666666646620205b32335d,
  0x0120202020283134342920207c31313131313131317c31313131313131317c313131303131303020202020202020202020202020202066666666656320205b32345d,
  0x0120202020283134352920207c31313131313131317c31313131313131317c313131303131303120202020202020202020202020202066666666656420205b32345d,
  0x0120202020283134362920207c31313131313131317c31313131313131317c303130313131202020202020202020202020202020202033666666643720205b32325d,
  0x0120202020283134372920207c31313131313131317c31313131313131317c313130303030302020202020202020202020202020202037666666653020205b32335d,
  0x0120202020283134382920207c31313131313131317c31313131313131317c313131303131313020202020202020202020202020202066666666656520205b32345d,
  0x0120202020283134392920207c31313131313131317c31313131313131317c313130303030312020202020202020202020202020202037666666653120205b32335d,
  0x0120202020283135302920207c31313131313131317c31313131313131317c313130303031302020202020202020202020202020202037666666653220205b32335d,
  0x0120202020283135312920207c31313131313131317c31313131313131317c313130303031312020202020202020202020202020202037666666653320205b32335d,
  0x0120202020283135322920207c31313131313131317c31313131313131317c313130303130302020202020202020202020202020202037666666653420205b32335d,
  0x0120202020283135332920207c31313131313131317c31313131313131307c313131303020202020202020202020202020202020202031666666646320205b32315d,
  0x0120202020283135342920207c31313131313131317c31313131313131317c303131303030202020202020202020202020202020202033666666643820205b32325d,
  0x0120202020283135352920207c31313131313131317c31313131313131317c313130303130312020202020202020202020202020202037666666653520205b32335d,
  0x0120202020283135362920207c31313131313131317c31313131313131317c303131303031202020202020202020202020202020202033666666643920205b32325d,
  0x0120202020283135372920207c31313131313131317c31313131313131317c313130303131302020202020202020202020202020202037666666653620205b32335d,
  0x0120202020283135382920207c31313131313131317c31313131313131317c313130303131312020202020202020202020202020202037666666653720205b32335d,
  0x0120202020283135392920207c31313131313131317c31313131313131317c313131303131313120202020202020202020202020202066666666656620205b32345d,
  0x0120202020283136302920207c31313131313131317c31313131313131317c303131303130202020202020202020202020202020202033666666646120205b32325d,
  0x0120202020283136312920207c31313131313131317c31313131313131307c313131303120202020202020202020202020202020202031666666646420205b32315d,
  0x0120202020283136322920207c31313131313131317c31313131313131307c313030312020202020202020202020202020202020202020666666653920205b32305d,
  0x0120202020283136332920207c31313131313131317c31313131313131317c303131303131202020202020202020202020202020202033666666646220205b32325d,
  0x0120202020283136342920207c31313131313131317c31313131313131317c303131313030202020202020202020202020202020202033666666646320205b32325d,
  0x0120202020283136352920207c31313131313131317c31313131313131317c313130313030302020202020202020202020202020202037666666653820205b32335d,
  0x0120202020283136362920207c31313131313131317c31313131313131317c313130313030312020202020202020202020202020202037666666653920205b32335d,
  0x0120202020283136372920207c31313131313131317c31313131313131307c313131313020202020202020202020202020202020202031666666646520205b32315d,
  0x0120202020283136382920207c31313131313131317c31313131313131317c313130313031302020202020202020202020202020202037666666656120205b32335d,
  0x0120202020283136392920207c31313131313131317c31313131313131317c303131313031202020202020202020202020202020202033666666646420205b32325d,
  0x0120202020283137302920207c31313131313131317c31313131313131317c303131313130202020202020202020202020202020202033666666646520205b32325d,
  0x0120202020283137312920207c31313131313131317c31313131313131317c313131313030303020202020202020202020202020202066666666663020205b32345d,
  0x0120202020283137322920207c31313131313131317c31313131313131307c313131313120202020202020202020202020202020202031666666646620205b32315d,
  0x0120202020283137332920207c31313131313131317c31313131313131317c303131313131202020202020202020202020202020202033666666646620205b32325d,
  0x0120202020283137342920207c31313131313131317c31313131313131317c313130313031312020202020202020202020202020202037666666656220205b32335d,
  0x0120202020283137352920207c31313131313131317c31313131313131317c313130313130302020202020202020202020202020202037666666656320205b32335d,
  0x0120202020283137362920207c31313131313131317c31313131313131317c303030303020202020202020202020202020202020202031666666653020205b32315d,
  0x0120202020283137372920207c31313131313131317c31313131313131317c303030303120202020202020202020202020202020202031666666653120205b32315d,
  0x0120202020283137382920207c31313131313131317c31313131313131317c313030303030202020202020202020202020202020202033666666653020205b32325d,
  0x0120202020283137392920207c31313131313131317c31313131313131317c303030313020202020202020202020202020202020202031666666653220205b32315d,
  0x0120202020283138302920207c31313131313131317c31313131313131317c313130313130312020202020202020202020202020202037666666656420205b32335d,
  0x0120202020283138312920207c31313131313131317c31313131313131317c313030303031202020202020202020202020202020202033666666653120205b32325d,
  0x0120202020283138322920207c31313131313131317c31313131313131317c313130313131302020202020202020202020202020202037666666656520205b32335d,
  0x0120202020283138332920207c31313131313131317c31313131313131317c313130313131312020202020202020202020202020202037666666656620205b32335d,
  0x0120202020283138342920207c31313131313131317c31313131313131307c313031302020202020202020202020202020202020202020666666656120205b32305d,
  0x0120202020283138352920207c31313131313131317c31313131313131317c313030303130202020202020202020202020202020202033666666653220205b32325d,
  0x0120202020283138362920207c31313131313131317c31313131313131317c313030303131202020202020202020202020202020202033666666653320205b32325d,
  0x0120202020283138372920207c31313131313131317c31313131313131317c313030313030202020202020202020202020202020202033666666653420205b32325d,
  0x0120202020283138382920207c31313131313131317c31313131313131317c313131303030302020202020202020202020202020202037666666663020205b32335d,
  0x0120202020283138392920207c31313131313131317c31313131313131317c313030313031202020202020202020202020202020202033666666653520205b32325d,
  0x0120202020283139302920207c31313131313131317c31313131313131317c313030313130202020202020202020202020202020202033666666653620205b32325d,
  0x0120202020283139312920207c31313131313131317c31313131313131317c313131303030312020202020202020202020202020202037666666663120205b32335d,
  0x0120202020283139322920207c31313131313131317c31313131313131317c31313131313030307c303020202020202020202020203366666666653020205b32365d,
  0x0120202020283139332920207c31313131313131317c31313131313131317c31313131313030307c303120202020202020202020203366666666653120205b32365d,
  0x0120202020283139342920207c31313131313131317c31313131313131307c313031312020202020202020202020202020202020202020666666656220205b32305d,
  0x0120202020283139352920207c31313131313131317c31313131313131307c303031202020202020202020202020202020202020202020376666663120205b31395d,
  0x0120202020283139362920207c31313131313131317c31313131313131317c313030313131202020202020202020202020202020202033666666653720205b32325d,
  0x0120202020283139372920207c31313131313131317c31313131313131317c313131303031302020202020202020202020202020202037666666663220205b32335d,
  0x0120202020283139382920207c31313131313131317c31313131313131317c313031303030202020202020202020202020202020202033666666653820205b32325d,
  0x0120202020283139392920207c31313131313131317c31313131313131317c31313131303131307c302020202020202020202020203166666666656320205b32355d,
  0x0120202020283230302920207c31313131313131317c31313131313131317c31313131313030307c313020202020202020202020203366666666653220205b32365d,
  0x0120202020283230312920207c31313131313131317c31313131313131317c31313131313030307c313120202020202020202020203366666666653320205b32365d,
  0x0120202020283230322920207c31313131313131317c31313131313131317c31313131313030317c303020202020202020202020203366666666653420205b32365d,
  0x0120202020283230332920207c31313131313131317c31313131313131317c31313131313031317c313130202020202020202020203766666666646520205b32375d,
  0x0120202020283230342920207c31313131313131317c31313131313131317c31313131313031317c313131202020202020202020203766666666646620205b32375d,
  0x0120202020283230352920207c31313131313131317c31313131313131317c31313131313030317c303120202020202020202020203366666666653520205b32365d,
  0x0120202020283230362920207c31313131313131317c31313131313131317c313131313030303120202020202020202020202020202066666666663120205b32345d,
  0x0120202020283230372920207c31313131313131317c31313131313131317c31313131303131307c312020202020202020202020203166666666656420205b32355d,
  0x0120202020283230382920207c31313131313131317c31313131313131307c303130202020202020202020202020202020202020202020376666663220205b31395d,
  0x0120202020283230392920207c31313131313131317c31313131313131317c303030313120202020202020202020202020202020202031666666653320205b32315d,
  0x0120202020283231302920207c31313131313131317c31313131313131317c31313131313030317c313020202020202020202020203366666666653620205b32365d,
  0x0120202020283231312920207c31313131313131317c31313131313131317c31313131313130307c303030202020202020202020203766666666653020205b32375d,
  0x0120202020283231322920207c31313131313131317c31313131313131317c31313131313130307c303031202020202020202020203766666666653120205b32375d,
  0x0120202020283231332920207c31313131313131317c31313131313131317c31313131313030317c313120202020202020202020203366666666653720205b32365d,
  0x0120202020283231342920207c31313131313131317c31313131313131317c31313131313130307c303130202020202020202020203766666666653220205b32375d,
  0x0120202020283231352920207c31313131313131317c31313131313131317c313131313030313020202020202020202020202020202066666666663220205b32345d,
  0x0120202020283231362920207c31313131313131317c31313131313131317c303031303020202020202020202020202020202020202031666666653420205b32315d,
  0x0120202020283231372920207c31313131313131317c31313131313131317c303031303120202020202020202020202020202020202031666666653520205b32315d,
  0x0120202020283231382920207c31313131313131317c31313131313131317c31313131313031307c303020202020202020202020203366666666653820205b32365d,
  0x0120202020283231392920207c31313131313131317c31313131313131317c31313131313031307c303120202020202020202020203366666666653920205b32365d,
  0x0120202020283232302920207c31313131313131317c31313131313131317c31313131313131317c313130312020202020202020206666666666666420205b32385d,
  0x0120202020283232312920207c31313131313131317c31313131313131317c31313131313130307c303131202020202020202020203766666666653320205b32375d,
  0x0120202020283232322920207c31313131313131317c31313131313131317c31313131313130307c313030202020202020202020203766666666653420205b32375d,
  0x0120202020283232332920207c31313131313131317c31313131313131317c31313131313130307c313031202020202020202020203766666666653520205b32375d,
  0x0120202020283232342920207c31313131313131317c31313131313131307c313130302020202020202020202020202020202020202020666666656320205b32305d,
  0x0120202020283232352920207c31313131313131317c31313131313131317c313131313030313120202020202020202020202020202066666666663320205b32345d,
  0x0120202020283232362920207c31313131313131317c31313131313131307c313130312020202020202020202020202020202020202020666666656420205b32305d,
  0x0120202020283232372920207c31313131313131317c31313131313131317c303031313020202020202020202020202020202020202031666666653620205b32315d,
  0x0120202020283232382920207c31313131313131317c31313131313131317c313031303031202020202020202020202020202020202033666666653920205b32325d,
  0x0120202020283232392920207c31313131313131317c31313131313131317c303031313120202020202020202020202020202020202031666666653720205b32315d,
  0x0120202020283233302920207c31313131313131317c31313131313131317c303130303020202020202020202020202020202020202031666666653820205b32315d,
  0x0120202020283233312920207c31313131313131317c31313131313131317c313131303031312020202020202020202020202020202037666666663320205b32335d,
  0x0120202020283233322920207c31313131313131317c31313131313131317c313031303130202020202020202020202020202020202033666666656120205b32325d,
  0x0120202020283233332920207c31313131313131317c31313131313131317c313031303131202020202020202020202020202020202033666666656220205b32325d,
  0x0120202020283233342920207c31313131313131317c31313131313131317c31313131303131317c302020202020202020202020203166666666656520205b32355d,
  0x0120202020283233352920207c31313131313131317c31313131313131317c31313131303131317c312020202020202020202020203166666666656620205b32355d,
  0x0120202020283233362920207c31313131313131317c31313131313131317c313131313031303020202020202020202020202020202066666666663420205b32345d,
  0x0120202020283233372920207c31313131313131317c31313131313131317c313131313031303120202020202020202020202020202066666666663520205b32345d,
  0x0120202020283233382920207c31313131313131317c31313131313131317c31313131313031307c313020202020202020202020203366666666656120205b32365d,
  0x0120202020283233392920207c31313131313131317c31313131313131317c313131303130302020202020202020202020202020202037666666663420205b32335d,
  0x0120202020283234302920207c31313131313131317c31313131313131317c31313131313031307c313120202020202020202020203366666666656220205b32365d,
  0x0120202020283234312920207c31313131313131317c31313131313131317c31313131313130307c313130202020202020202020203766666666653620205b32375d,
  0x0120202020283234322920207c31313131313131317c31313131313131317c31313131313031317c303020202020202020202020203366666666656320205b32365d,
  0x0120202020283234332920207c31313131313131317c31313131313131317c31313131313031317c303120202020202020202020203366666666656420205b32365d,
  0x0120202020283234342920207c31313131313131317c31313131313131317c31313131313130307c313131202020202020202020203766666666653720205b32375d,
  0x0120202020283234352920207c31313131313131317c31313131313131317c31313131313130317c303030202020202020202020203766666666653820205b32375d,
  0x0120202020283234362920207c31313131313131317c31313131313131317c31313131313130317c303031202020202020202020203766666666653920205b32375d,
  0x0120202020283234372920207c31313131313131317c31313131313131317c31313131313130317c303130202020202020202020203766666666656120205b32375d,
  0x0120202020283234382920207c31313131313131317c31313131313131317c31313131313130317c303131202020202020202020203766666666656220205b32375d,
  0x0120202020283234392920207c31313131313131317c31313131313131317c31313131313131317c313131302020202020202020206666666666666520205b32385d,
  0x0120202020283235302920207c31313131313131317c31313131313131317c31313131313130317c313030202020202020202020203766666666656320205b32375d,
  0x0120202020283235312920207c31313131313131317c31313131313131317c31313131313130317c313031202020202020202020203766666666656420205b32375d,
  0x0120202020283235322920207c31313131313131317c31313131313131317c31313131313130317c313130202020202020202020203766666666656520205b32375d,
  0x0120202020283235332920207c31313131313131317c31313131313131317c31313131313130317c313131202020202020202020203766666666656620205b32375d,
  0x0120202020283235342920207c31313131313131317c31313131313131317c31313131313131307c303030202020202020202020203766666666663020205b32375d,
  0x0120202020283235352920207c31313131313131317c31313131313131317c31313131313031317c313020202020202020202020203366666666656520205b32365d,
  0x01454f5320283235362920207c31313131313131317c31313131313131317c31313131313131317c313131313131202020202020336666666666666620205b33305d]

/-- Base-256 digits of `n`, most significant first, without the leading marker digit 1.
(Only unpacks the numerals of `ASSET_LINES`; /repo/huffman/assets/hpack-huffman.txt:1-257.) -/
def assetLineBytes : Nat → Nat → List UInt8 → List UInt8
  | 0, _, acc => acc
  | fuel + 1, n, acc => if n ≤ 1 then acc else assetLineBytes fuel (n / 256) (UInt8.ofNat (n % 256) :: acc)

/-- The bytes of the asset file: its lines joined by newline (the file has no newline at its end).
/repo/huffman/assets/hpack-huffman.txt:1-257. -/
def ASSET : List UInt8 :=
  ((ASSET_LINES.map (fun n => assetLineBytes 100 n [])).intersperse [10]).flatten

end Verif.Huffman
