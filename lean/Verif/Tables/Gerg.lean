/-
Generated by tools/gen_tables.py from /repo/src/gerg2008.rs; do not edit.
Every number is a literal of the Rust text, as the exact decimal mantissa * 10^-exponent.
-/
import Verif.Dec

namespace Aga8.Gerg.Tab

/-- `MMI_GERG`, src/gerg2008.rs:15-37. -/
def MMI_GERG : Vector Dec 22 := #v[dc 0 0, dc 1604246 5, dc 280134 4, dc 440095 4, dc 3006904 5, dc 4409562 5, dc 581222 4,
    dc 581222 4, dc 7214878 5, dc 7214878 5, dc 8617536 5, dc 10020194 5, dc 11422852 5,
    dc 1282551 4, dc 14228168 5, dc 201588 5, dc 319988 4, dc 280101 4, dc 1801528 5,
    dc 3408088 5, dc 4002602 6, dc 39948 3]

/-- `KPOL`, src/gerg2008.rs:39-41. -/
def KPOL : Vector Nat 22 := #v[0, 6, 6, 4, 6, 6, 6, 6, 6, 6, 6, 6, 6, 6, 6, 5, 6, 6, 7, 6, 4, 6]

/-- `KEXP`, src/gerg2008.rs:43-45. -/
def KEXP : Vector Nat 22 := #v[0, 18, 18, 18, 18, 6, 6, 6, 6, 6, 6, 6, 6, 6, 6, 9, 6, 6, 9, 6, 8, 6]

/-- `KPOLIJ`, src/gerg2008.rs:47-47. -/
def KPOLIJ : Vector Nat 11 := #v[0, 2, 5, 2, 3, 2, 3, 4, 6, 6, 10]

/-- `KEXPIJ`, src/gerg2008.rs:49-49. -/
def KEXPIJ : Vector Nat 11 := #v[0, 10, 4, 7, 3, 4, 3, 0, 6, 6, 0]

/-- `DC`, src/gerg2008.rs:52-75. -/
def DC : Vector Dec 22 := #v[dc 0 0, dc 10139342719 9, dc 111839 4, dc 10624978698 9, dc 687085454 8, dc 5000043088 9,
    dc 386014294 8, dc 3920016792 9, dc 3271 3, dc 3215577588 9, dc 2705877875 9,
    dc 2315324434 9, dc 2056404127 9, dc 181 2, dc 164 2, dc 1494 2, dc 1363 2, dc 1085 2,
    dc 1787371609 8, dc 1019 2, dc 17399 3, dc 13407429659 9]

/-- `TC`, src/gerg2008.rs:78-81. -/
def TC : Vector Dec 22 := #v[dc 0 0, dc 190564 3, dc 126192 3, dc 3041282 4, dc 305322 3, dc 369825 3, dc 407817 3,
    dc 425125 3, dc 46035 2, dc 4697 1, dc 50782 2, dc 54013 2, dc 56932 2, dc 59455 2,
    dc 6177 1, dc 3319 2, dc 154595 3, dc 13286 2, dc 647096 3, dc 3731 1, dc 51953 4,
    dc 150687 3]

/-- `NOIK`, src/gerg2008.rs:83-655. -/
def NOIK : Vector (Vector Dec 25) 22 := #v[
  #v[dc 0 0, dc 0 0, dc 0 0, dc 0 0, dc 0 0, dc 0 0, dc 0 0, dc 0 0, dc 0 0, dc 0 0, dc 0 0,
      dc 0 0, dc 0 0, dc 0 0, dc 0 0, dc 0 0, dc 0 0, dc 0 0, dc 0 0, dc 0 0, dc 0 0, dc 0 0,
      dc 0 0, dc 0 0, dc 0 0],
  #v[dc 0 0, dc 57335704239162 14, dc (-1676068752373) 12, dc 23405291834916 14,
      dc (-21947376343441) 14, dc 16369201404128 15, dc 1500440638928 14, dc 98990489492918 15,
      dc 58382770929055 14, dc (-7478686756039) 13, dc 30033302857974 14, dc 20985543806568 14,
      dc (-18590151133061) 15, dc (-15782558339049) 14, dc 12716735220791 14,
      dc (-32019743894346) 15, dc (-68049729364536) 15, dc 24291412853736 15,
      dc 51440451639444 16, dc (-19084949733532) 15, dc 55229677241291 16,
      dc (-44197392976085) 16, dc 40061416708429 15, dc (-33752085907575) 15,
      dc (-25127658213357) 16],
  #v[dc 0 0, dc 59889711801201 14, dc (-16941557480731) 13, dc 24579736191718 14,
      dc (-23722456755175) 14, dc 17954918715141 15, dc 14592875720215 15, dc 10008065936206 14,
      dc 7315711538553 13, dc (-88372272336366) 14, dc 31887660246708 14, dc 20766491728799 14,
      dc (-19379315454158) 15, dc (-16936641554983) 14, dc 13546846041701 14,
      dc (-33066712095307) 15, dc (-60690817018557) 15, dc 12797548292871 15,
      dc 58743664107299 16, dc (-18451951971969) 15, dc 47226622042472 16,
      dc (-52024079680599) 16, dc 43563505956635 15, dc (-36251690750939) 15,
      dc (-28974026866543) 16],
  #v[dc 0 0, dc 52646564804653 14, dc (-14995725042592) 13, dc 27329786733782 14,
      dc 12949500022786 14, dc 15404088341841 14, dc (-58186950946814) 14,
      dc (-18022494838296) 14, dc (-95389904072812) 15, dc (-80486819317679) 16,
      dc (-3554775127309) 14, dc (-28079014882405) 14, dc (-82435890081677) 15,
      dc 10832427979006 15, dc (-67073993161097) 16, dc (-46827907600524) 16,
      dc (-28359911832177) 15, dc 19500174744098 15, dc (-21609137507166) 14,
      dc 43772794926972 14, dc (-22130790113593) 14, dc 15190189957331 15, dc (-153809489533) 13,
      dc 0 0, dc 0 0],
  #v[dc 0 0, dc 63596780450714 14, dc (-17377981785459) 13, dc 28914060926272 14,
      dc (-33714276845694) 14, dc 22405964699561 15, dc 15715424886913 15, dc 11450634253745 14,
      dc 10612049379745 13, dc (-12855224439423) 13, dc 39414630777652 14, dc 31390924682041 14,
      dc (-21592277117247) 15, dc (-21723666564905) 14, dc (-28999574439489) 14,
      dc 4232117302573 13, dc 4643410025926 14, dc (-13138398329741) 14, dc 11492850364368 15,
      dc (-33387688429909) 15, dc 15183171583644 15, dc (-47610805647657) 16,
      dc 46917166277885 15, dc (-39401755804649) 15, dc (-32569956247611) 16],
  #v[dc 0 0, dc 10403973107358 13, dc (-28318404081403) 13, dc 84393809606294 14,
      dc (-76559591850023) 15, dc 9469737305728 14, dc 24796475497006 17, dc 2774376042287 13,
      dc (-43846000648377) 15, dc (-2699106478435) 13, dc (-6931341308986) 14,
      dc (-29632145981653) 15, dc 1404012675138 14, dc 0 0, dc 0 0, dc 0 0, dc 0 0, dc 0 0,
      dc 0 0, dc 0 0, dc 0 0, dc 0 0, dc 0 0, dc 0 0, dc 0 0],
  #v[dc 0 0, dc 104293315891 11, dc (-28184272548892) 13, dc 8617623239785 13,
      dc (-10613619452487) 14, dc 98615749302134 15, dc 23948208682322 17, dc 3033000485695 13,
      dc (-41598156135099) 15, dc (-29991937470058) 14, dc (-80369342764109) 15,
      dc (-29761373251151) 15, dc 1305963030314 14, dc 0 0, dc 0 0, dc 0 0, dc 0 0, dc 0 0,
      dc 0 0, dc 0 0, dc 0 0, dc 0 0, dc 0 0, dc 0 0, dc 0 0],
  #v[dc 0 0, dc 10626277411455 13, dc (-2862095182835) 12, dc 88738233403777 14,
      dc (-12570581155345) 14, dc 10286308708106 14, dc 25358040602654 17, dc 32325200233982 14,
      dc (-37950761057432) 15, dc (-32534802014452) 14, dc (-79050969051011) 15,
      dc (-20636720547775) 15, dc 5705380933475 15, dc 0 0, dc 0 0, dc 0 0, dc 0 0, dc 0 0,
      dc 0 0, dc 0 0, dc 0 0, dc 0 0, dc 0 0, dc 0 0, dc 0 0],
  #v[dc 0 0, dc 10963 4, dc (-30402) 4, dc 10317 4, dc (-1541) 4, dc 11535 5, dc 29809 8,
      dc 39571 5, dc (-45881) 6, dc (-35804) 5, dc (-10107) 5, dc (-35484) 6, dc 18156 6, dc 0 0,
      dc 0 0, dc 0 0, dc 0 0, dc 0 0, dc 0 0, dc 0 0, dc 0 0, dc 0 0, dc 0 0, dc 0 0, dc 0 0],
  #v[dc 0 0, dc 10968643098001 13, dc (-29988888298061) 13, dc 99516886799212 14,
      dc (-16170708558539) 14, dc 11334460072775 14, dc 26760595150748 17, dc 40979881986931 14,
      dc (-40876423083075) 15, dc (-38169482469447) 14, dc (-10931956843993) 14,
      dc (-3207322332799) 14, dc 16877016216975 15, dc 0 0, dc 0 0, dc 0 0, dc 0 0, dc 0 0,
      dc 0 0, dc 0 0, dc 0 0, dc 0 0, dc 0 0, dc 0 0, dc 0 0],
  #v[dc 0 0, dc 10553238013661 13, dc (-26120615890629) 13, dc 7661388296726 13,
      dc (-29770320622459) 14, dc 11879907733358 14, dc 27922861062617 17, dc 46347589844105 14,
      dc 11433196980297 15, dc (-48256968738131) 14, dc (-93750558924659) 15,
      dc (-67273247155994) 16, dc (-51141583585428) 16, dc 0 0, dc 0 0, dc 0 0, dc 0 0, dc 0 0,
      dc 0 0, dc 0 0, dc 0 0, dc 0 0, dc 0 0, dc 0 0, dc 0 0],
  #v[dc 0 0, dc 10543747645262 13, dc (-26500681506144) 13, dc 81730047827543 14,
      dc (-30451391253428) 14, dc 122538687108 12, dc 27266472743928 17, dc 4986582568167 13,
      dc (-71432815084176) 17, dc (-5423689552545) 13, dc (-13801821610756) 14,
      dc (-61595287380011) 16, dc 48602510393022 17, dc 0 0, dc 0 0, dc 0 0, dc 0 0, dc 0 0,
      dc 0 0, dc 0 0, dc 0 0, dc 0 0, dc 0 0, dc 0 0, dc 0 0],
  #v[dc 0 0, dc 10722544875633 13, dc (-24632951172003) 13, dc 65386674054928 14,
      dc (-36324974085628) 14, dc 1271326962676 13, dc 3071357277793 16, dc 5265685698754 13,
      dc 19362862857653 15, dc (-58939426849155) 14, dc (-14069963991934) 14,
      dc (-78966330500036) 16, dc 33036597968109 16, dc 0 0, dc 0 0, dc 0 0, dc 0 0, dc 0 0,
      dc 0 0, dc 0 0, dc 0 0, dc 0 0, dc 0 0, dc 0 0, dc 0 0],
  #v[dc 0 0, dc 11151 4, dc (-2702) 3, dc 83416 5, dc (-38828) 5, dc 1376 4, dc 28185 8,
      dc 62037 5, dc 15847 6, dc (-61726) 5, dc (-15043) 5, dc (-12982) 6, dc 44325 7, dc 0 0,
      dc 0 0, dc 0 0, dc 0 0, dc 0 0, dc 0 0, dc 0 0, dc 0 0, dc 0 0, dc 0 0, dc 0 0, dc 0 0],
  #v[dc 0 0, dc 10461 4, dc (-24807) 4, dc 74372 5, dc (-52579) 5, dc 15315 5, dc 32865 8,
      dc 84178 5, dc 55424 6, dc (-73555) 5, dc (-18507) 5, dc (-20775) 6, dc 12335 6, dc 0 0,
      dc 0 0, dc 0 0, dc 0 0, dc 0 0, dc 0 0, dc 0 0, dc 0 0, dc 0 0, dc 0 0, dc 0 0, dc 0 0],
  #v[dc 0 0, dc 53579928451252 13, dc (-62050252530595) 13, dc 13830241327086 14,
      dc (-71397954896129) 15, dc 15474053959733 15, dc (-14976806405771) 14,
      dc (-26368723988451) 15, dc 56681303156066 15, dc (-60063958030436) 15,
      dc (-4504394202713) 13, dc 424788402445 12, dc (-21997640827139) 15,
      dc (-1049952137453) 14, dc (-28955902866816) 16, dc 0 0, dc 0 0, dc 0 0, dc 0 0, dc 0 0,
      dc 0 0, dc 0 0, dc 0 0, dc 0 0, dc 0 0],
  #v[dc 0 0, dc 88878286369701 14, dc (-24879433312148) 13, dc 59750190775886 14,
      dc 96501817061881 16, dc 7197042871277 14, dc 22337443000195 17, dc 18558686391474 14,
      dc (-3812936803576) 14, dc (-15352245383006) 14, dc (-26726814910919) 15,
      dc (-25675298677127) 15, dc 95714302123668 16, dc 0 0, dc 0 0, dc 0 0, dc 0 0, dc 0 0,
      dc 0 0, dc 0 0, dc 0 0, dc 0 0, dc 0 0, dc 0 0, dc 0 0],
  #v[dc 0 0, dc 90554 5, dc (-24515) 4, dc 53149 5, dc 24173 6, dc 72156 6, dc 18818 8,
      dc 19405 5, dc (-43268) 6, dc (-12778) 5, dc (-27896) 6, dc (-34154) 6, dc 16329 6, dc 0 0,
      dc 0 0, dc 0 0, dc 0 0, dc 0 0, dc 0 0, dc 0 0, dc 0 0, dc 0 0, dc 0 0, dc 0 0, dc 0 0],
  #v[dc 0 0, dc 82728408749586 14, dc (-18602220416584) 13, dc (-11199009613744) 13,
      dc 15635753976056 14, dc 87375844859025 14, dc (-36674403715731) 14, dc 53987893432436 15,
      dc 10957690214499 13, dc 53213037828563 15, dc 13050533930825 15, dc (-41079520434476) 14,
      dc 1463744334412 13, dc (-55726838623719) 15, dc (-112017741438) 13,
      dc (-66062758068099) 16, dc 46918522004538 16, dc 0 0, dc 0 0, dc 0 0, dc 0 0, dc 0 0,
      dc 0 0, dc 0 0, dc 0 0],
  #v[dc 0 0, dc 87641 5, dc (-20367) 4, dc 21634 5, dc (-50199) 6, dc 66994 6, dc 19076 8,
      dc 20227 5, dc (-45348) 7, dc (-2223) 4, dc (-34714) 6, dc (-14885) 6, dc 74154 7, dc 0 0,
      dc 0 0, dc 0 0, dc 0 0, dc 0 0, dc 0 0, dc 0 0, dc 0 0, dc 0 0, dc 0 0, dc 0 0, dc 0 0],
  #v[dc 0 0, dc (-45579024006737) 14, dc 12516390754925 13, dc (-15438231650621) 13,
      dc 20467489707221 15, dc (-34476212380781) 14, dc (-20858459512787) 15,
      dc 16227414711778 15, dc (-57471818200892) 15, dc 19462416430715 15,
      dc (-3329568012302) 14, dc (-10863577372367) 15, dc (-22173365245954) 15, dc 0 0, dc 0 0,
      dc 0 0, dc 0 0, dc 0 0, dc 0 0, dc 0 0, dc 0 0, dc 0 0, dc 0 0, dc 0 0, dc 0 0],
  #v[dc 0 0, dc 85095714803969 14, dc (-2400322294348) 12, dc 54127841476466 14,
      dc 16919770692538 15, dc 68825965019035 15, dc 21428032815338 17, dc 17429895321992 14,
      dc (-33654495604194) 15, dc (-13526799857691) 14, dc (-16387350791552) 15,
      dc (-24987666851475) 15, dc 88769204815709 16, dc 0 0, dc 0 0, dc 0 0, dc 0 0, dc 0 0,
      dc 0 0, dc 0 0, dc 0 0, dc 0 0, dc 0 0, dc 0 0, dc 0 0]]

/-- `FIJ`, src/gerg2008.rs:657-846. -/
def FIJ : Vector (Vector Dec 22) 22 := #v[
  #v[dc 0 0, dc 0 0, dc 0 0, dc 0 0, dc 0 0, dc 0 0, dc 0 0, dc 0 0, dc 0 0, dc 0 0, dc 0 0,
      dc 0 0, dc 0 0, dc 0 0, dc 0 0, dc 0 0, dc 0 0, dc 0 0, dc 0 0, dc 0 0, dc 0 0, dc 0 0],
  #v[dc 0 0, dc 0 0, dc 1 0, dc 1 0, dc 1 0, dc 1 0, dc 771035405688 12, dc 1 0, dc 0 0, dc 0 0,
      dc 0 0, dc 0 0, dc 0 0, dc 0 0, dc 0 0, dc 1 0, dc 0 0, dc 0 0, dc 0 0, dc 0 0, dc 0 0,
      dc 0 0],
  #v[dc 0 0, dc 1 0, dc 0 0, dc 1 0, dc 1 0, dc 0 0, dc 0 0, dc 0 0, dc 0 0, dc 0 0, dc 0 0,
      dc 0 0, dc 0 0, dc 0 0, dc 0 0, dc 0 0, dc 0 0, dc 0 0, dc 0 0, dc 0 0, dc 0 0, dc 0 0],
  #v[dc 0 0, dc 1 0, dc 1 0, dc 0 0, dc 0 0, dc 0 0, dc 0 0, dc 0 0, dc 0 0, dc 0 0, dc 0 0,
      dc 0 0, dc 0 0, dc 0 0, dc 0 0, dc 0 0, dc 0 0, dc 0 0, dc 0 0, dc 0 0, dc 0 0, dc 0 0],
  #v[dc 0 0, dc 1 0, dc 1 0, dc 0 0, dc 0 0, dc 13042476515 11, dc 260632376098 12,
      dc 281570073085 12, dc 0 0, dc 0 0, dc 0 0, dc 0 0, dc 0 0, dc 0 0, dc 0 0, dc 0 0, dc 0 0,
      dc 0 0, dc 0 0, dc 0 0, dc 0 0, dc 0 0],
  #v[dc 0 0, dc 1 0, dc 0 0, dc 0 0, dc 13042476515 11, dc 0 0, dc (-551609771024) 13,
      dc 312572600489 13, dc 0 0, dc 0 0, dc 0 0, dc 0 0, dc 0 0, dc 0 0, dc 0 0, dc 0 0, dc 0 0,
      dc 0 0, dc 0 0, dc 0 0, dc 0 0, dc 0 0],
  #v[dc 0 0, dc 771035405688 12, dc 0 0, dc 0 0, dc 260632376098 12, dc (-551609771024) 13,
      dc 0 0, dc (-551240293009) 13, dc 0 0, dc 0 0, dc 0 0, dc 0 0, dc 0 0, dc 0 0, dc 0 0,
      dc 0 0, dc 0 0, dc 0 0, dc 0 0, dc 0 0, dc 0 0, dc 0 0],
  #v[dc 0 0, dc 1 0, dc 0 0, dc 0 0, dc 281570073085 12, dc 312572600489 13,
      dc (-551240293009) 13, dc 0 0, dc 0 0, dc 0 0, dc 0 0, dc 0 0, dc 0 0, dc 0 0, dc 0 0,
      dc 0 0, dc 0 0, dc 0 0, dc 0 0, dc 0 0, dc 0 0, dc 0 0],
  #v[dc 0 0, dc 0 0, dc 0 0, dc 0 0, dc 0 0, dc 0 0, dc 0 0, dc 0 0, dc 0 0, dc 0 0, dc 0 0,
      dc 0 0, dc 0 0, dc 0 0, dc 0 0, dc 0 0, dc 0 0, dc 0 0, dc 0 0, dc 0 0, dc 0 0, dc 0 0],
  #v[dc 0 0, dc 0 0, dc 0 0, dc 0 0, dc 0 0, dc 0 0, dc 0 0, dc 0 0, dc 0 0, dc 0 0, dc 0 0,
      dc 0 0, dc 0 0, dc 0 0, dc 0 0, dc 0 0, dc 0 0, dc 0 0, dc 0 0, dc 0 0, dc 0 0, dc 0 0],
  #v[dc 0 0, dc 0 0, dc 0 0, dc 0 0, dc 0 0, dc 0 0, dc 0 0, dc 0 0, dc 0 0, dc 0 0, dc 0 0,
      dc 0 0, dc 0 0, dc 0 0, dc 0 0, dc 0 0, dc 0 0, dc 0 0, dc 0 0, dc 0 0, dc 0 0, dc 0 0],
  #v[dc 0 0, dc 0 0, dc 0 0, dc 0 0, dc 0 0, dc 0 0, dc 0 0, dc 0 0, dc 0 0, dc 0 0, dc 0 0,
      dc 0 0, dc 0 0, dc 0 0, dc 0 0, dc 0 0, dc 0 0, dc 0 0, dc 0 0, dc 0 0, dc 0 0, dc 0 0],
  #v[dc 0 0, dc 0 0, dc 0 0, dc 0 0, dc 0 0, dc 0 0, dc 0 0, dc 0 0, dc 0 0, dc 0 0, dc 0 0,
      dc 0 0, dc 0 0, dc 0 0, dc 0 0, dc 0 0, dc 0 0, dc 0 0, dc 0 0, dc 0 0, dc 0 0, dc 0 0],
  #v[dc 0 0, dc 0 0, dc 0 0, dc 0 0, dc 0 0, dc 0 0, dc 0 0, dc 0 0, dc 0 0, dc 0 0, dc 0 0,
      dc 0 0, dc 0 0, dc 0 0, dc 0 0, dc 0 0, dc 0 0, dc 0 0, dc 0 0, dc 0 0, dc 0 0, dc 0 0],
  #v[dc 0 0, dc 0 0, dc 0 0, dc 0 0, dc 0 0, dc 0 0, dc 0 0, dc 0 0, dc 0 0, dc 0 0, dc 0 0,
      dc 0 0, dc 0 0, dc 0 0, dc 0 0, dc 0 0, dc 0 0, dc 0 0, dc 0 0, dc 0 0, dc 0 0, dc 0 0],
  #v[dc 0 0, dc 1 0, dc 0 0, dc 0 0, dc 0 0, dc 0 0, dc 0 0, dc 0 0, dc 0 0, dc 0 0, dc 0 0,
      dc 0 0, dc 0 0, dc 0 0, dc 0 0, dc 0 0, dc 0 0, dc 0 0, dc 0 0, dc 0 0, dc 0 0, dc 0 0],
  #v[dc 0 0, dc 0 0, dc 0 0, dc 0 0, dc 0 0, dc 0 0, dc 0 0, dc 0 0, dc 0 0, dc 0 0, dc 0 0,
      dc 0 0, dc 0 0, dc 0 0, dc 0 0, dc 0 0, dc 0 0, dc 0 0, dc 0 0, dc 0 0, dc 0 0, dc 0 0],
  #v[dc 0 0, dc 0 0, dc 0 0, dc 0 0, dc 0 0, dc 0 0, dc 0 0, dc 0 0, dc 0 0, dc 0 0, dc 0 0,
      dc 0 0, dc 0 0, dc 0 0, dc 0 0, dc 0 0, dc 0 0, dc 0 0, dc 0 0, dc 0 0, dc 0 0, dc 0 0],
  #v[dc 0 0, dc 0 0, dc 0 0, dc 0 0, dc 0 0, dc 0 0, dc 0 0, dc 0 0, dc 0 0, dc 0 0, dc 0 0,
      dc 0 0, dc 0 0, dc 0 0, dc 0 0, dc 0 0, dc 0 0, dc 0 0, dc 0 0, dc 0 0, dc 0 0, dc 0 0],
  #v[dc 0 0, dc 0 0, dc 0 0, dc 0 0, dc 0 0, dc 0 0, dc 0 0, dc 0 0, dc 0 0, dc 0 0, dc 0 0,
      dc 0 0, dc 0 0, dc 0 0, dc 0 0, dc 0 0, dc 0 0, dc 0 0, dc 0 0, dc 0 0, dc 0 0, dc 0 0],
  #v[dc 0 0, dc 0 0, dc 0 0, dc 0 0, dc 0 0, dc 0 0, dc 0 0, dc 0 0, dc 0 0, dc 0 0, dc 0 0,
      dc 0 0, dc 0 0, dc 0 0, dc 0 0, dc 0 0, dc 0 0, dc 0 0, dc 0 0, dc 0 0, dc 0 0, dc 0 0],
  #v[dc 0 0, dc 0 0, dc 0 0, dc 0 0, dc 0 0, dc 0 0, dc 0 0, dc 0 0, dc 0 0, dc 0 0, dc 0 0,
      dc 0 0, dc 0 0, dc 0 0, dc 0 0, dc 0 0, dc 0 0, dc 0 0, dc 0 0, dc 0 0, dc 0 0, dc 0 0]]

/-- `MNUMB`, src/gerg2008.rs:848-915. -/
def MNUMB : Vector (Vector Nat 22) 22 := #v[
  #v[0, 0, 0, 0, 0, 0, 0, 0, 0, 0, 0, 0, 0, 0, 0, 0, 0, 0, 0, 0, 0, 0],
  #v[0, 0, 3, 4, 1, 2, 10, 10, 0, 0, 0, 0, 0, 0, 0, 7, 0, 0, 0, 0, 0, 0],
  #v[0, 0, 0, 5, 6, 0, 0, 0, 0, 0, 0, 0, 0, 0, 0, 0, 0, 0, 0, 0, 0, 0],
  #v[0, 0, 0, 0, 0, 0, 0, 0, 0, 0, 0, 0, 0, 0, 0, 0, 0, 0, 0, 0, 0, 0],
  #v[0, 0, 0, 0, 0, 10, 10, 10, 0, 0, 0, 0, 0, 0, 0, 0, 0, 0, 0, 0, 0, 0],
  #v[0, 0, 0, 0, 0, 0, 10, 10, 0, 0, 0, 0, 0, 0, 0, 0, 0, 0, 0, 0, 0, 0],
  #v[0, 0, 0, 0, 0, 0, 0, 10, 0, 0, 0, 0, 0, 0, 0, 0, 0, 0, 0, 0, 0, 0],
  #v[0, 0, 0, 0, 0, 0, 0, 0, 0, 0, 0, 0, 0, 0, 0, 0, 0, 0, 0, 0, 0, 0],
  #v[0, 0, 0, 0, 0, 0, 0, 0, 0, 0, 0, 0, 0, 0, 0, 0, 0, 0, 0, 0, 0, 0],
  #v[0, 0, 0, 0, 0, 0, 0, 0, 0, 0, 0, 0, 0, 0, 0, 0, 0, 0, 0, 0, 0, 0],
  #v[0, 0, 0, 0, 0, 0, 0, 0, 0, 0, 0, 0, 0, 0, 0, 0, 0, 0, 0, 0, 0, 0],
  #v[0, 0, 0, 0, 0, 0, 0, 0, 0, 0, 0, 0, 0, 0, 0, 0, 0, 0, 0, 0, 0, 0],
  #v[0, 0, 0, 0, 0, 0, 0, 0, 0, 0, 0, 0, 0, 0, 0, 0, 0, 0, 0, 0, 0, 0],
  #v[0, 0, 0, 0, 0, 0, 0, 0, 0, 0, 0, 0, 0, 0, 0, 0, 0, 0, 0, 0, 0, 0],
  #v[0, 0, 0, 0, 0, 0, 0, 0, 0, 0, 0, 0, 0, 0, 0, 0, 0, 0, 0, 0, 0, 0],
  #v[0, 0, 0, 0, 0, 0, 0, 0, 0, 0, 0, 0, 0, 0, 0, 0, 0, 0, 0, 0, 0, 0],
  #v[0, 0, 0, 0, 0, 0, 0, 0, 0, 0, 0, 0, 0, 0, 0, 0, 0, 0, 0, 0, 0, 0],
  #v[0, 0, 0, 0, 0, 0, 0, 0, 0, 0, 0, 0, 0, 0, 0, 0, 0, 0, 0, 0, 0, 0],
  #v[0, 0, 0, 0, 0, 0, 0, 0, 0, 0, 0, 0, 0, 0, 0, 0, 0, 0, 0, 0, 0, 0],
  #v[0, 0, 0, 0, 0, 0, 0, 0, 0, 0, 0, 0, 0, 0, 0, 0, 0, 0, 0, 0, 0, 0],
  #v[0, 0, 0, 0, 0, 0, 0, 0, 0, 0, 0, 0, 0, 0, 0, 0, 0, 0, 0, 0, 0, 0],
  #v[0, 0, 0, 0, 0, 0, 0, 0, 0, 0, 0, 0, 0, 0, 0, 0, 0, 0, 0, 0, 0, 0]]

/-- `TH0I`, src/gerg2008.rs:917-940. -/
def TH0I : Vector (Vector Dec 8) 22 := #v[
  #v[dc 0 0, dc 0 0, dc 0 0, dc 0 0, dc 0 0, dc 0 0, dc 0 0, dc 0 0],
  #v[dc 0 0, dc 0 0, dc 0 0, dc 0 0, dc 820659 3, dc 17841 2, dc 106282 2, dc 109053 2],
  #v[dc 0 0, dc 0 0, dc 0 0, dc 0 0, dc 662738 3, dc 680562 3, dc 174006 2, dc 0 0],
  #v[dc 0 0, dc 0 0, dc 0 0, dc 0 0, dc 919306 3, dc 86507 2, dc 483553 3, dc 341109 3],
  #v[dc 0 0, dc 0 0, dc 0 0, dc 0 0, dc 559314 3, dc 223284 3, dc 103138 2, dc 107129 2],
  #v[dc 0 0, dc 0 0, dc 0 0, dc 0 0, dc 479856 3, dc 200893 3, dc 955312 3, dc 102729 2],
  #v[dc 0 0, dc 0 0, dc 0 0, dc 0 0, dc 43827 2, dc 198018 3, dc 190502 2, dc 893765 3],
  #v[dc 0 0, dc 0 0, dc 0 0, dc 0 0, dc 46827 2, dc 183636 3, dc 19141 1, dc 903185 3],
  #v[dc 0 0, dc 0 0, dc 0 0, dc 0 0, dc 292503 3, dc 910237 3, dc 191937 2, dc 0 0],
  #v[dc 0 0, dc 0 0, dc 0 0, dc 0 0, dc 17867 2, dc 840538 3, dc 177425 2, dc 0 0],
  #v[dc 0 0, dc 0 0, dc 0 0, dc 0 0, dc 182326 3, dc 859207 3, dc 182659 2, dc 0 0],
  #v[dc 0 0, dc 0 0, dc 0 0, dc 0 0, dc 169789 3, dc 836195 3, dc 176046 2, dc 0 0],
  #v[dc 0 0, dc 0 0, dc 0 0, dc 0 0, dc 158922 3, dc 815064 3, dc 169307 2, dc 0 0],
  #v[dc 0 0, dc 0 0, dc 0 0, dc 0 0, dc 156854 3, dc 814882 3, dc 169379 2, dc 0 0],
  #v[dc 0 0, dc 0 0, dc 0 0, dc 0 0, dc 164947 3, dc 836264 3, dc 175024 2, dc 0 0],
  #v[dc 0 0, dc 0 0, dc 0 0, dc 0 0, dc 228734 3, dc 326843 3, dc 165171 2, dc 167169 2],
  #v[dc 0 0, dc 0 0, dc 0 0, dc 0 0, dc 223571 2, dc 111669 2, dc 0 0, dc 0 0],
  #v[dc 0 0, dc 0 0, dc 0 0, dc 0 0, dc 155045 2, dc 704525 3, dc 0 0, dc 0 0],
  #v[dc 0 0, dc 0 0, dc 0 0, dc 0 0, dc 268795 3, dc 114141 2, dc 250737 2, dc 0 0],
  #v[dc 0 0, dc 0 0, dc 0 0, dc 0 0, dc 183363 2, dc 847181 3, dc 0 0, dc 0 0],
  #v[dc 0 0, dc 0 0, dc 0 0, dc 0 0, dc 0 0, dc 0 0, dc 0 0, dc 0 0],
  #v[dc 0 0, dc 0 0, dc 0 0, dc 0 0, dc 0 0, dc 0 0, dc 0 0, dc 0 0]]

/-- `GVIJ`, src/gerg2008.rs:942-1451. -/
def GVIJ : Vector (Vector Dec 22) 22 := #v[
  #v[dc 0 0, dc 0 0, dc 0 0, dc 0 0, dc 0 0, dc 0 0, dc 0 0, dc 0 0, dc 0 0, dc 0 0, dc 0 0,
      dc 0 0, dc 0 0, dc 0 0, dc 0 0, dc 0 0, dc 0 0, dc 0 0, dc 0 0, dc 0 0, dc 0 0, dc 0 0],
  #v[dc 0 0, dc 9862572236818776 17, dc 9513349381203616 17, dc 9657806584344247 17,
      dc 1210671509816274 16, dc 1496295609028296 16, dc 1771428785314997 16,
      dc 1685495717670535 16, dc 2460237594565183 16, dc 1972463440401667 16,
      dc 206928570333252 15, dc 2512860961209341 16, dc 2701209697928585 16,
      dc 3020114236037432 16, dc 3327219269040879 16, dc 8328832937418065 17,
      dc 8537493536985147 17, dc 9568618815465649 17, dc 1208496662482664 16,
      dc 1036207282348787 16, dc 6717043597788004 17, dc 9033331649375066 17],
  #v[dc 0 0, dc 0 0, dc 8941424726615939 17, dc 9397687829062652 17, dc 1175526942735744 16,
      dc 1447081157080465 16, dc 1731619818556942 16, dc 1805874048709332 16,
      dc 2031326998193614 16, dc 191849542767128 15, dc 2362476311788352 16,
      dc 30571300744063 14, dc 2782798185876332 16, dc 2802418897681576 16,
      dc 2715600589941661 16, dc 7324400476454085 17, dc 8085121603361749 17,
      dc 91572113755441 15, dc 781420148998483 16, dc 10722200877353 14, dc 6534763314144051 17,
      dc 8229830577332384 17],
  #v[dc 0 0, dc 0 0, dc 0 0, dc 941178357551188 16, dc 1221547048657018 16,
      dc 1467060312284717 16, dc 1897682438758877 16, dc 2318873802147639 16,
      dc 2128409304803593 16, dc 1986348078947102 16, dc 1715344317248116 16,
      dc 3114753052840692 16, dc 270827762158326 15, dc 2524424963135926 16,
      dc 3271836340748599 16, dc 8312842489959818 17, dc 8331251635442594 17,
      dc 9313845825829596 17, dc 1074203548558978 16, dc 8923746160027898 17,
      dc 5435734042129235 17, dc 8715125587655904 17],
  #v[dc 0 0, dc 0 0, dc 0 0, dc 0 0, dc 1455423039708246 16, dc 17143936567431 14,
      dc 1981818039904798 16, dc 1962684451208782 16, dc 2256296051472722 16,
      dc 2222156116202908 16, dc 2812330010515487 16, dc 2785039031833608 16,
      dc 3051347809638714 16, dc 3490142459705742 16, dc 3545899733634683 16,
      dc 1035867912935121 16, dc 1053704529578616 16, dc 1403613105589193 16,
      dc 9372541670140304 17, dc 1253553702387325 16, dc 9479640493083616 17,
      dc 1061432699138848 16],
  #v[dc 0 0, dc 0 0, dc 0 0, dc 0 0, dc 0 0, dc 1999982764948525 16, dc 2283470992127822 16,
      dc 2271261429527691 16, dc 2590640051744343 16, dc 2679515543046866 16,
      dc 2921480068526442 16, dc 3252266341637917 16, dc 3553650119994654 16,
      dc 4162618285525517 16, dc 3810097114545736 16, dc 1305889508139833 16,
      dc 1262929615596563 16, dc 154249960990131 15, dc 1144538290264615 16,
      dc 1354583631039435 16, dc 1143373266227266 16, dc 127164837789916 15],
  #v[dc 0 0, dc 0 0, dc 0 0, dc 0 0, dc 0 0, dc 0 0, dc 2590577643220642 16,
      dc 2569545837458022 16, dc 2823873351332171 16, dc 2850219424143964 16,
      dc 3143117965106567 16, dc 34548133894624 14, dc 3726717516427648 16,
      dc 4057719760305587 16, dc 4344069310066155 16, dc 1629960842771485 16,
      dc 1472450868093243 16, dc 1756118314446152 16, dc 1326301061572424 16,
      dc 1660396993651052 16, dc 1339794665992285 16, dc 1482107957478344 16],
  #v[dc 0 0, dc 0 0, dc 0 0, dc 0 0, dc 0 0, dc 0 0, dc 0 0, dc 2551009480471634 16,
      dc 2804089272140941 16, dc 2872449155961379 16, dc 3196134105207196 16,
      dc 3422229539820711 16, dc 3751683956308331 16, dc 4037935679872359 16,
      dc 4087218070261471 16, dc 1734804359024254 16, dc 1458848092585968 16,
      dc 1736334233133459 16, dc 1607390687562834 16, dc 1542084543332911 16,
      dc 1327022941212915 16, dc 1783631000302835 16],
  #v[dc 0 0, dc 0 0, dc 0 0, dc 0 0, dc 0 0, dc 0 0, dc 0 0, dc 0 0, dc 3057169061449098 16,
      dc 308351513337592 15, dc 3376413676109724 16, dc 3688109100981098 16,
      dc 3960013224335295 16, dc 4291015469177791 16, dc 4577365018322581 16,
      dc 1863256551542911 16, dc 1629022803260088 16, dc 1989414023075421 16,
      dc 1472508527777243 16, dc 1527153530333512 16, dc 148697474158183 15,
      dc 1639352140605326 16],
  #v[dc 0 0, dc 0 0, dc 0 0, dc 0 0, dc 0 0, dc 0 0, dc 0 0, dc 0 0, dc 0 0,
      dc 310986120730482 15, dc 3402759748862068 16, dc 3714455172564741 16,
      dc 4192741194319073 16, dc 4349117635004124 16, dc 4510108556995468 16,
      dc 1889602625220721 16, dc 1646301261469664 16, dc 2015760096956138 16,
      dc 1424170766155539 16, dc 1956614440997982 16, dc 1503235337720747 16,
      dc 165670343303836 15],
  #v[dc 0 0, dc 0 0, dc 0 0, dc 0 0, dc 0 0, dc 0 0, dc 0 0, dc 0 0, dc 0 0, dc 0 0,
      dc 3695658289825811 16, dc 4005291477398147 16, dc 4279257839161997 16,
      dc 4643597383308069 16, dc 4869031160029209 16, dc 2205117857350171 16,
      dc 1833756691313343 16, dc 2308658637676204 16, dc 1947440571227899 16,
      dc 2069360100170327 16, dc 1679863299539747 16, dc 184493338652349 15],
  #v[dc 0 0, dc 0 0, dc 0 0, dc 0 0, dc 0 0, dc 0 0, dc 0 0, dc 0 0, dc 0 0, dc 0 0, dc 0 0,
      dc 4319049137629409 16, dc 4616611864110435 16, dc 4903951271319349 16,
      dc 5172636081431188 16, dc 2272850094528531 16, dc 2025367687671113 16,
      dc 2620354061994153 16, dc 1843973796986496 16, dc 2032799592821606 16,
      dc 1860776682276512 16, dc 2037309204932012 16],
  #v[dc 0 0, dc 0 0, dc 0 0, dc 0 0, dc 0 0, dc 0 0, dc 0 0, dc 0 0, dc 0 0, dc 0 0, dc 0 0,
      dc 0 0, dc 4862857387175434 16, dc 5193859630435835 16, dc 5470885180509746 16,
      dc 2766100715748006 16, dc 2187170818187281 16, dc 2892258185755857 16,
      dc 1196624453975623 16, dc 2427559715774492 16, dc 2013803407775042 16,
      dc 2199739523053399 16],
  #v[dc 0 0, dc 0 0, dc 0 0, dc 0 0, dc 0 0, dc 0 0, dc 0 0, dc 0 0, dc 0 0, dc 0 0, dc 0 0,
      dc 0 0, dc 0 0, dc 5524861878453039 16, dc 5811211425229519 16, dc 3097102960618724 16,
      dc 2378602005934755 16, dc 3223260432125248 16, dc 2176359401947182 16,
      dc 2850829449721815 16, dc 2195122180901155 16, dc 2391893088657795 16],
  #v[dc 0 0, dc 0 0, dc 0 0, dc 0 0, dc 0 0, dc 0 0, dc 0 0, dc 0 0, dc 0 0, dc 0 0, dc 0 0,
      dc 0 0, dc 0 0, dc 0 0, dc 6097560975609756 16, dc 4681387958644017 16,
      dc 2540052119263587 16, dc 2388016921804501 16, dc 1284015418325299 16,
      dc 3205334884994168 16, dc 2348250324634247 16, dc 2553937467857709 16],
  #v[dc 0 0, dc 0 0, dc 0 0, dc 0 0, dc 0 0, dc 0 0, dc 0 0, dc 0 0, dc 0 0, dc 0 0, dc 0 0,
      dc 0 0, dc 0 0, dc 0 0, dc 0 0, dc 6693440428380187 17, dc 7010179850447741 17,
      dc 8845601056990605 17, dc 6127719296460801 17, dc 8154271906497129 17,
      dc 6208442079410317 17, dc 7069096425894923 17],
  #v[dc 0 0, dc 0 0, dc 0 0, dc 0 0, dc 0 0, dc 0 0, dc 0 0, dc 0 0, dc 0 0, dc 0 0, dc 0 0,
      dc 0 0, dc 0 0, dc 0 0, dc 0 0, dc 0 0, dc 7336757153338225 17, dc 8240974130906203 17,
      dc 7346596185071996 17, dc 8515209313549774 17, dc 6509808341771975 17,
      dc 735055452727199 16],
  #v[dc 0 0, dc 0 0, dc 0 0, dc 0 0, dc 0 0, dc 0 0, dc 0 0, dc 0 0, dc 0 0, dc 0 0, dc 0 0,
      dc 0 0, dc 0 0, dc 0 0, dc 0 0, dc 0 0, dc 0 0, dc 9216589861751152 17,
      dc 7255733729926725 17, dc 8338208282104481 17, dc 7346059970761289 17,
      dc 9633323363471309 17],
  #v[dc 0 0, dc 0 0, dc 0 0, dc 0 0, dc 0 0, dc 0 0, dc 0 0, dc 0 0, dc 0 0, dc 0 0, dc 0 0,
      dc 0 0, dc 0 0, dc 0 0, dc 0 0, dc 0 0, dc 0 0, dc 0 0, dc 5594807453383915 17,
      dc 7619132157066086 17, dc 5670789681980431 17, dc 6734851301633836 17],
  #v[dc 0 0, dc 0 0, dc 0 0, dc 0 0, dc 0 0, dc 0 0, dc 0 0, dc 0 0, dc 0 0, dc 0 0, dc 0 0,
      dc 0 0, dc 0 0, dc 0 0, dc 0 0, dc 0 0, dc 0 0, dc 0 0, dc 0 0, dc 9813542688910697 17,
      dc 7600172384102773 17, dc 8582270646459379 17],
  #v[dc 0 0, dc 0 0, dc 0 0, dc 0 0, dc 0 0, dc 0 0, dc 0 0, dc 0 0, dc 0 0, dc 0 0, dc 0 0,
      dc 0 0, dc 0 0, dc 0 0, dc 0 0, dc 0 0, dc 0 0, dc 0 0, dc 0 0, dc 0 0,
      dc 5747456750387953 17, dc 6565890814001021 17],
  #v[dc 0 0, dc 0 0, dc 0 0, dc 0 0, dc 0 0, dc 0 0, dc 0 0, dc 0 0, dc 0 0, dc 0 0, dc 0 0,
      dc 0 0, dc 0 0, dc 0 0, dc 0 0, dc 0 0, dc 0 0, dc 0 0, dc 0 0, dc 0 0, dc 0 0,
      dc 7458551157333355 17]]

/-- `BTIJ`, src/gerg2008.rs:1453-1802. -/
def BTIJ : Vector (Vector Dec 22) 22 := #v[
  #v[dc 0 0, dc 0 0, dc 0 0, dc 0 0, dc 0 0, dc 0 0, dc 0 0, dc 0 0, dc 0 0, dc 0 0, dc 0 0,
      dc 0 0, dc 0 0, dc 0 0, dc 0 0, dc 0 0, dc 0 0, dc 0 0, dc 0 0, dc 0 0, dc 0 0, dc 0 0],
  #v[dc 0 0, dc 1 0, dc 9962012744473688 16, dc 104576084754776 14, dc 9926864371736339 16,
      dc 9794671061048931 16, dc 9610189814618515 16, dc 9883837516735081 16, dc 1 0,
      dc 9843170258626256 16, dc 9640192053959713 16, dc 9553723938832778 16,
      dc 9167560489622263 16, dc 8981670742437994 16, dc 8794272453106193 16, dc 1 0, dc 1 0,
      dc 9749819284912398 16, dc 1130679010535891 15, dc 1022303050787581 15, dc 1 0,
      dc 9819903870322271 16],
  #v[dc 0 0, dc 0 0, dc 1 0, dc 1011823803472132 15, dc 1015401706807559 15,
      dc 1005361826090574 15, dc 9857871235696968 16, dc 9890605506580747 16, dc 1 0, dc 1 0,
      dc 1 0, dc 1 0, dc 1 0, dc 9146616523823026 16, dc 9176384047491958 16,
      dc 8951701836504297 16, dc 9943890707901669 16, dc 1 0, dc 1 0, dc 1009406750298678 15,
      dc 4800671255126253 16, dc 9981405511920447 16],
  #v[dc 0 0, dc 0 0, dc 0 0, dc 1 0, dc 1027934702719095 15, dc 106837141657541 14,
      dc 1047224395384351 15, dc 1036672193386368 15, dc 1038729823111436 15,
      dc 1054730632930632 15, dc 1 0, dc 1023752023121105 15, dc 1060263102417008 15,
      dc 1015436354877504 15, dc 1040458732428864 15, dc 8879673499048379 16, dc 1 0, dc 1 0,
      dc 994751315306562 15, dc 1032326273851984 15, dc 5904041822844169 16,
      dc 9930378861244568 16],
  #v[dc 0 0, dc 0 0, dc 0 0, dc 0 0, dc 1 0, dc 9924138303256935 16, dc 1 0,
      dc 9982618639363469 16, dc 1 0, dc 997379610862591 15, dc 1 0, dc 1 0,
      dc 968390363957066 15, dc 1 0, dc 9426818811759997 16, dc 8704327055561685 16, dc 1 0,
      dc 1 0, dc 1 0, dc 9804907998686012 16, dc 1 0, dc 1 0],
  #v[dc 0 0, dc 0 0, dc 0 0, dc 0 0, dc 0 0, dc 1 0, dc 9960285469592408 16,
      dc 1000620674279263 15, dc 9887606097055807 16, dc 9929804041083284 16, dc 1 0, dc 1 0,
      dc 1 0, dc 1 0, dc 9708776387253003 16, dc 1 0, dc 1 0, dc 1 0, dc 1 0,
      dc 9852022640704851 16, dc 1 0, dc 1 0],
  #v[dc 0 0, dc 0 0, dc 0 0, dc 0 0, dc 0 0, dc 0 0, dc 1 0, dc 9998449240126066 16, dc 1 0,
      dc 1 0, dc 1 0, dc 1 0, dc 1 0, dc 1 0, dc 1 0, dc 1 0, dc 1 0, dc 1 0, dc 1 0,
      dc 9497487706071003 16, dc 1 0, dc 1 0],
  #v[dc 0 0, dc 0 0, dc 0 0, dc 0 0, dc 0 0, dc 0 0, dc 0 0, dc 1 0, dc 1 0, dc 1 0, dc 1 0,
      dc 1 0, dc 1 0, dc 1 0, dc 987416608471285 15, dc 1 0, dc 1 0, dc 1 0, dc 1 0,
      dc 9721228125694491 16, dc 1 0, dc 1 0],
  #v[dc 0 0, dc 0 0, dc 0 0, dc 0 0, dc 0 0, dc 0 0, dc 0 0, dc 0 0, dc 1 0, dc 1 0, dc 1 0,
      dc 1 0, dc 1 0, dc 1 0, dc 1 0, dc 1 0, dc 1 0, dc 1 0, dc 1 0, dc 1 0, dc 1 0, dc 1 0],
  #v[dc 0 0, dc 0 0, dc 0 0, dc 0 0, dc 0 0, dc 0 0, dc 0 0, dc 0 0, dc 0 0, dc 1 0, dc 1 0,
      dc 1 0, dc 1 0, dc 1 0, dc 1 0, dc 1 0, dc 1 0, dc 1 0, dc 1 0, dc 9254567965682359 16,
      dc 1 0, dc 1 0],
  #v[dc 0 0, dc 0 0, dc 0 0, dc 0 0, dc 0 0, dc 0 0, dc 0 0, dc 0 0, dc 0 0, dc 0 0, dc 1 0,
      dc 1 0, dc 1 0, dc 1 0, dc 9952875848338202 16, dc 1 0, dc 1 0, dc 1 0, dc 1 0,
      dc 9719812866923787 16, dc 1 0, dc 1 0],
  #v[dc 0 0, dc 0 0, dc 0 0, dc 0 0, dc 0 0, dc 0 0, dc 0 0, dc 0 0, dc 0 0, dc 0 0, dc 0 0,
      dc 1 0, dc 1 0, dc 1 0, dc 1 0, dc 1 0, dc 1 0, dc 1 0, dc 1 0, dc 977997214742632 15,
      dc 1 0, dc 1 0],
  #v[dc 0 0, dc 0 0, dc 0 0, dc 0 0, dc 0 0, dc 0 0, dc 0 0, dc 0 0, dc 0 0, dc 0 0, dc 0 0,
      dc 0 0, dc 1 0, dc 1 0, dc 1 0, dc 1 0, dc 1 0, dc 1 0, dc 1 0, dc 1 0, dc 1 0, dc 1 0],
  #v[dc 0 0, dc 0 0, dc 0 0, dc 0 0, dc 0 0, dc 0 0, dc 0 0, dc 0 0, dc 0 0, dc 0 0, dc 0 0,
      dc 0 0, dc 0 0, dc 1 0, dc 1 0, dc 1 0, dc 1 0, dc 1 0, dc 1 0, dc 1 0, dc 1 0, dc 1 0],
  #v[dc 0 0, dc 0 0, dc 0 0, dc 0 0, dc 0 0, dc 0 0, dc 0 0, dc 0 0, dc 0 0, dc 0 0, dc 0 0,
      dc 0 0, dc 0 0, dc 0 0, dc 1 0, dc 1133837562661612 15, dc 1 0, dc 1101648891523215 15,
      dc 8049001351229038 16, dc 9469068980543366 16, dc 1 0, dc 1 0],
  #v[dc 0 0, dc 0 0, dc 0 0, dc 0 0, dc 0 0, dc 0 0, dc 0 0, dc 0 0, dc 0 0, dc 0 0, dc 0 0,
      dc 0 0, dc 0 0, dc 0 0, dc 0 0, dc 1 0, dc 1 0, dc 1 0, dc 1 0, dc 1 0, dc 1 0, dc 1 0],
  #v[dc 0 0, dc 0 0, dc 0 0, dc 0 0, dc 0 0, dc 0 0, dc 0 0, dc 0 0, dc 0 0, dc 0 0, dc 0 0,
      dc 0 0, dc 0 0, dc 0 0, dc 0 0, dc 0 0, dc 1 0, dc 1 0, dc 1 0, dc 1 0, dc 1 0,
      dc 1000046206533749 15],
  #v[dc 0 0, dc 0 0, dc 0 0, dc 0 0, dc 0 0, dc 0 0, dc 0 0, dc 0 0, dc 0 0, dc 0 0, dc 0 0,
      dc 0 0, dc 0 0, dc 0 0, dc 0 0, dc 0 0, dc 0 0, dc 1 0, dc 1 0, dc 1051725596885534 15,
      dc 1 0, dc 1 0],
  #v[dc 0 0, dc 0 0, dc 0 0, dc 0 0, dc 0 0, dc 0 0, dc 0 0, dc 0 0, dc 0 0, dc 0 0, dc 0 0,
      dc 0 0, dc 0 0, dc 0 0, dc 0 0, dc 0 0, dc 0 0, dc 0 0, dc 1 0, dc 1 0, dc 1 0, dc 1 0],
  #v[dc 0 0, dc 0 0, dc 0 0, dc 0 0, dc 0 0, dc 0 0, dc 0 0, dc 0 0, dc 0 0, dc 0 0, dc 0 0,
      dc 0 0, dc 0 0, dc 0 0, dc 0 0, dc 0 0, dc 0 0, dc 0 0, dc 0 0, dc 1 0, dc 1 0, dc 1 0],
  #v[dc 0 0, dc 0 0, dc 0 0, dc 0 0, dc 0 0, dc 0 0, dc 0 0, dc 0 0, dc 0 0, dc 0 0, dc 0 0,
      dc 0 0, dc 0 0, dc 0 0, dc 0 0, dc 0 0, dc 0 0, dc 0 0, dc 0 0, dc 0 0, dc 1 0, dc 1 0],
  #v[dc 0 0, dc 0 0, dc 0 0, dc 0 0, dc 0 0, dc 0 0, dc 0 0, dc 0 0, dc 0 0, dc 0 0, dc 0 0,
      dc 0 0, dc 0 0, dc 0 0, dc 0 0, dc 0 0, dc 0 0, dc 0 0, dc 0 0, dc 0 0, dc 0 0, dc 1 0]]

/-- `GTIJ`, src/gerg2008.rs:1804-2293. -/
def GTIJ : Vector (Vector Dec 22) 22 := #v[
  #v[dc 0 0, dc 0 0, dc 0 0, dc 0 0, dc 0 0, dc 0 0, dc 0 0, dc 0 0, dc 0 0, dc 0 0, dc 0 0,
      dc 0 0, dc 0 0, dc 0 0, dc 0 0, dc 0 0, dc 0 0, dc 0 0, dc 0 0, dc 0 0, dc 0 0, dc 0 0],
  #v[dc 0 0, dc 190564 3, dc 1515701479881736 13, dc 2401960466031651 13,
      dc 2522748201314937 13, dc 2886523099075485 13, dc 3173184556996133 13,
      dc 3315307111115051 13, dc 3521354408236836 13, dc 3707841270001427 13,
      dc 4064021156241856 13, dc 4327010061102872 13, dc 4570539597026416 13,
      dc 48760467175271 11, dc 5045675991786781 13, dc 1075739913292733 13,
      dc 1630578671084287 13, dc 1551461780582284 13, dc 2896877384127097 13,
      dc 2591293716590194 13, dc 9942192303673512 14, dc 1662181437692417 13],
  #v[dc 0 0, dc 0 0, dc 126192 3, dc 218273425689361 12, dc 2173069651848146 13,
      dc 2602038461441325 13, dc 2893087839773652 13, dc 3005789235555173 13,
      dc 3330396848074405 13, dc 3454756760759687 13, dc 372784596732709 12,
      dc 3970884294832958 13, dc 4645825256688316 13, dc 4582051265198602 13,
      dc 4873335669738378 13, dc 7198924155475973 14, dc 1386064454254421 13,
      dc 1286317832607745 13, dc 2768459630760971 13, dc 2093204553673829 13,
      dc 2611141021192185 14, dc 1363955272875254 13],
  #v[dc 0 0, dc 0 0, dc 0 0, dc 3041282 4, dc 2783496131619096 13, dc 315023370975912 12,
      dc 3351628415494222 13, dc 3337053913600579 13, dc 3665604732108367 13,
      dc 3800917858356499 13, dc 4081907556910224 13, dc 4290195377860164 13,
      dc 4603644478481144 13, dc 4887754326160893 13, dc 5064415158683939 13,
      dc 1687965222872744 13, dc 2168333440202406 13, dc 2010136131012027 13,
      dc 3431041750024804 13, dc 3169343430852917 13, dc 9796460902524419 14,
      dc 2242023409966151 13],
  #v[dc 0 0, dc 0 0, dc 0 0, dc 0 0, dc 305322 3, dc 3396832779709951 13,
      dc 3646123183956969 13, dc 3725030011900611 13, dc 3828359998447917 13,
      dc 4034111452516014 13, dc 4300582594769881 13, dc 4607283688747306 13,
      dc 4794704339937678 13, dc 4499359999661619 13, dc 5216598086904 10, dc 178633426235147 12,
      dc 2172584971640925 13, dc 2153501444809983 13, dc 4444914452630106 13,
      dc 301699447408447 12, dc 3982762090057602 14, dc 2144948862187628 13],
  #v[dc 0 0, dc 0 0, dc 0 0, dc 0 0, dc 0 0, dc 369825 3, dc 3896198769089135 13,
      dc 3995673801746188 13, dc 4116284603805881 13, dc 4187816541099113 13,
      dc 4444832517245036 13, dc 4693046424561628 13, dc 4880823640181041 13,
      dc 5204812217128971 13, dc 5373023774594378 13, dc 255727865724955 12,
      dc 2391089623477129 13, dc 2654569282597974 13, dc 2936841217320592 13,
      dc 3339794898237834 13, dc 4383322737946636 14, dc 2360674051515795 13],
  #v[dc 0 0, dc 0 0, dc 0 0, dc 0 0, dc 0 0, dc 0 0, dc 407817 3, dc 4169453459458028 13,
      dc 4340835000634194 13, dc 4387585001462073 13, dc 4578184998641902 13,
      dc 4739735002062214 13, dc 488568499849367 12, dc 5011835001255292 13,
      dc 512758499810912 12, dc 2205035000179776 13, dc 2510905595895632 13,
      dc 2703385000159771 13, dc 5137088177479534 13, dc 3562459120391862 13,
      dc 4602968238104625 14, dc 2478965919067868 13],
  #v[dc 0 0, dc 0 0, dc 0 0, dc 0 0, dc 0 0, dc 0 0, dc 0 0, dc 425125 3,
      dc 4427375001228837 13, dc 4478149387217079 13, dc 468891096111637 12,
      dc 4893884730293855 13, dc 5082911849465443 13, dc 5098374998098914 13,
      dc 5481482408392825 13, dc 2980626804801041 13, dc 2563634127074299 13,
      dc 2789924998975487 13, dc 3228343110714528 13, dc 3636770882468457 13,
      dc 469962967955987 13, dc 3151224505783322 13],
  #v[dc 0 0, dc 0 0, dc 0 0, dc 0 0, dc 0 0, dc 0 0, dc 0 0, dc 0 0, dc 46035 2,
      dc 465024999778386 12, dc 4840850001640415 13, dc 5002400001650092 13,
      dc 5148349998770528 13, dc 5274499999752048 13, dc 539024999907433 12,
      dc 246770000019091 12, dc 2667729526207632 13, dc 2966050000684182 13,
      dc 5457935906549288 13, dc 407245442229103 12, dc 4890456374409243 14,
      dc 2633794989174366 13],
  #v[dc 0 0, dc 0 0, dc 0 0, dc 0 0, dc 0 0, dc 0 0, dc 0 0, dc 0 0, dc 0 0, dc 4697 1,
      dc 4887599997625391 13, dc 5049150001904361 13, dc 525608893801269 12,
      dc 5831039911718311 13, dc 565053287389948 12, dc 2514449999867786 13,
      dc 2694684981588757 13, dc 3012800000166069 13, dc 2468020482104324 13,
      dc 3862329499862754 13, dc 4939870858635881 14, dc 2660407560882355 13],
  #v[dc 0 0, dc 0 0, dc 0 0, dc 0 0, dc 0 0, dc 0 0, dc 0 0, dc 0 0, dc 0 0, dc 0 0, dc 50782 2,
      dc 5236016632323489 13, dc 5385699999087508 13, dc 5799007477242704 13,
      dc 5749205743380877 13, dc 3922271479804588 13, dc 2801899942895892 13,
      dc 3203399999066655 13, dc 3265662108668542 13, dc 4102879006043737 13,
      dc 5136416305168419 14, dc 2766258706990364 13],
  #v[dc 0 0, dc 0 0, dc 0 0, dc 0 0, dc 0 0, dc 0 0, dc 0 0, dc 0 0, dc 0 0, dc 0 0, dc 0 0,
      dc 54013 2, dc 5538637073612125 13, dc 5673388641713556 13, dc 5789023626735006 13,
      dc 4243210919010731 13, dc 2889660833904214 13, dc 3364950000921659 13,
      dc 5911987504046334 13, dc 4499188980682869 13, dc 5297298735204576 14,
      dc 2852903245993456 13],
  #v[dc 0 0, dc 0 0, dc 0 0, dc 0 0, dc 0 0, dc 0 0, dc 0 0, dc 0 0, dc 0 0, dc 0 0, dc 0 0,
      dc 0 0, dc 56932 2, dc 5819350001623353 13, dc 5972784101094609 13, dc 3012549999629922 13,
      dc 2966715783488536 13, dc 3510900000457704 13, dc 4018538254309484 13,
      dc 4608831652382195 13, dc 543855513532776 13, dc 2928978027230659 13],
  #v[dc 0 0, dc 0 0, dc 0 0, dc 0 0, dc 0 0, dc 0 0, dc 0 0, dc 0 0, dc 0 0, dc 0 0, dc 0 0,
      dc 0 0, dc 0 0, dc 59455 2, dc 6061249998398653 13, dc 3138700000069703 13,
      dc 303173971920414 12, dc 3637050000590259 13, dc 6202668190383877 13,
      dc 5117521317427675 13, dc 5557756395345157 14, dc 2993174833684127 13],
  #v[dc 0 0, dc 0 0, dc 0 0, dc 0 0, dc 0 0, dc 0 0, dc 0 0, dc 0 0, dc 0 0, dc 0 0, dc 0 0,
      dc 0 0, dc 0 0, dc 0 0, dc 6177 1, dc 5772299862316896 13, dc 309019953239269 12,
      dc 5423004282064553 13, dc 4199718576844389 13, dc 5155888844860302 13,
      dc 5664924368427172 14, dc 3050891015752611 13],
  #v[dc 0 0, dc 0 0, dc 0 0, dc 0 0, dc 0 0, dc 0 0, dc 0 0, dc 0 0, dc 0 0, dc 0 0, dc 0 0,
      dc 0 0, dc 0 0, dc 0 0, dc 0 0, dc 3319 2, dc 7163105506691912 14, dc 9147318694533813 14,
      dc 1465507292373532 13, dc 1112797780371618 13, dc 131313368321736 13,
      dc 7071988072670936 14],
  #v[dc 0 0, dc 0 0, dc 0 0, dc 0 0, dc 0 0, dc 0 0, dc 0 0, dc 0 0, dc 0 0, dc 0 0, dc 0 0,
      dc 0 0, dc 0 0, dc 0 0, dc 0 0, dc 0 0, dc 154595 3, dc 1433160552764414 13,
      dc 3051440730780441 13, dc 2401653482499088 13, dc 2834020824729416 14,
      dc 1511713949575274 13],
  #v[dc 0 0, dc 0 0, dc 0 0, dc 0 0, dc 0 0, dc 0 0, dc 0 0, dc 0 0, dc 0 0, dc 0 0, dc 0 0,
      dc 0 0, dc 0 0, dc 0 0, dc 0 0, dc 0 0, dc 0 0, dc 13286 2, dc 2932118254095492 13,
      dc 2335233712436011 13, dc 2627256283654109 14, dc 1350148680083226 13],
  #v[dc 0 0, dc 0 0, dc 0 0, dc 0 0, dc 0 0, dc 0 0, dc 0 0, dc 0 0, dc 0 0, dc 0 0, dc 0 0,
      dc 0 0, dc 0 0, dc 0 0, dc 0 0, dc 0 0, dc 0 0, dc 0 0, dc 647096 3, dc 462163871373824 12,
      dc 5798153023851646 14, dc 334416846789014 12],
  #v[dc 0 0, dc 0 0, dc 0 0, dc 0 0, dc 0 0, dc 0 0, dc 0 0, dc 0 0, dc 0 0, dc 0 0, dc 0 0,
      dc 0 0, dc 0 0, dc 0 0, dc 0 0, dc 0 0, dc 0 0, dc 0 0, dc 0 0, dc 3731 1,
      dc 4402688303752605 14, dc 2371103534221987 13],
  #v[dc 0 0, dc 0 0, dc 0 0, dc 0 0, dc 0 0, dc 0 0, dc 0 0, dc 0 0, dc 0 0, dc 0 0, dc 0 0,
      dc 0 0, dc 0 0, dc 0 0, dc 0 0, dc 0 0, dc 0 0, dc 0 0, dc 0 0, dc 0 0, dc 51953 4,
      dc 2797970998956207 14],
  #v[dc 0 0, dc 0 0, dc 0 0, dc 0 0, dc 0 0, dc 0 0, dc 0 0, dc 0 0, dc 0 0, dc 0 0, dc 0 0,
      dc 0 0, dc 0 0, dc 0 0, dc 0 0, dc 0 0, dc 0 0, dc 0 0, dc 0 0, dc 0 0, dc 0 0,
      dc 150687 3]]

/-- Assignments `self.coik[i][k] = v` in the loop src/gerg2008.rs:2441-2480, as `(k, v)`. -/
def coikAll : List (Nat × Nat) := [
  (1, 0), (2, 0), (3, 0), (4, 0), (5, 0), (6, 0), (7, 1), (8, 1), (9, 2), (10, 2), (11, 3),
  (12, 3)]

/-- Assignments `self.coik[i][k] = v` in the loop src/gerg2008.rs:2482-2557, as `(k, v)`. -/
def coikLong : List (Nat × Nat) := [
  (1, 0), (2, 0), (3, 0), (4, 0), (5, 0), (6, 0), (7, 1), (8, 1), (9, 1), (10, 1), (11, 1),
  (12, 1), (13, 2), (14, 2), (15, 2), (16, 2), (17, 2), (18, 3), (19, 3), (20, 3), (21, 6),
  (22, 6), (23, 6), (24, 6)]

/-- Assignments `self.doik[i][k] = v` in the loop src/gerg2008.rs:2441-2480, as `(k, v)`. -/
def doikAll : List (Nat × Nat) := [
  (1, 1), (2, 1), (3, 1), (4, 2), (5, 3), (6, 7), (7, 2), (8, 5), (9, 1), (10, 4), (11, 3),
  (12, 4)]

/-- Assignments `self.doik[i][k] = v` in the loop src/gerg2008.rs:2482-2557, as `(k, v)`. -/
def doikLong : List (Nat × Nat) := [
  (1, 1), (2, 1), (3, 2), (4, 2), (5, 4), (6, 4), (7, 1), (8, 1), (9, 1), (10, 2), (11, 3),
  (12, 6), (13, 2), (14, 3), (15, 3), (16, 4), (17, 4), (18, 2), (19, 3), (20, 4), (21, 5),
  (22, 6), (23, 6), (24, 7)]

/-- Assignments `self.toik[i][k] = v` in the loop src/gerg2008.rs:2441-2480, as `(k, v)`. -/
def toikAll : List (Nat × Dec) := [
  (1, dc 25 2), (2, dc 1125 3), (3, dc 15 1), (4, dc 1375 3), (5, dc 25 2), (6, dc 875 3),
  (7, dc 625 3), (8, dc 175 2), (9, dc 3625 3), (10, dc 3625 3), (11, dc 145 1), (12, dc 12 0)]

/-- Assignments `self.toik[i][k] = v` in the loop src/gerg2008.rs:2482-2557, as `(k, v)`. -/
def toikLong : List (Nat × Dec) := [
  (1, dc 125 3), (2, dc 1125 3), (3, dc 375 3), (4, dc 1125 3), (5, dc 625 3), (6, dc 15 1),
  (7, dc 625 3), (8, dc 2625 3), (9, dc 275 2), (10, dc 2125 3), (11, dc 2 0), (12, dc 175 2),
  (13, dc 45 1), (14, dc 475 2), (15, dc 5 0), (16, dc 4 0), (17, dc 45 1), (18, dc 75 1),
  (19, dc 14 0), (20, dc 115 1), (21, dc 26 0), (22, dc 28 0), (23, dc 30 0), (24, dc 16 0)]

/-- Straight-line assignments `coik[i][j] = v` of `setup`, in program order, src/gerg2008.rs:2559-2751. -/
def coikAsg : List (Nat × Nat × Nat) := [
  (3, 1, 0), (3, 2, 0), (3, 3, 0), (3, 4, 0), (3, 5, 1), (3, 6, 1), (3, 7, 1), (3, 8, 1),
  (3, 9, 1), (3, 10, 1), (3, 11, 2), (3, 12, 2), (3, 13, 3), (3, 14, 3), (3, 15, 3), (3, 16, 3),
  (3, 17, 3), (3, 18, 5), (3, 19, 5), (3, 20, 5), (3, 21, 6), (3, 22, 6), (15, 1, 0), (15, 2, 0),
  (15, 3, 0), (15, 4, 0), (15, 5, 0), (15, 6, 1), (15, 7, 1), (15, 8, 1), (15, 9, 1),
  (15, 10, 2), (15, 11, 2), (15, 12, 3), (15, 13, 3), (15, 14, 5), (18, 1, 0), (18, 2, 0),
  (18, 3, 0), (18, 4, 0), (18, 5, 0), (18, 6, 0), (18, 7, 0), (18, 8, 1), (18, 9, 1),
  (18, 10, 1), (18, 11, 2), (18, 12, 2), (18, 13, 2), (18, 14, 3), (18, 15, 5), (18, 16, 5),
  (20, 1, 0), (20, 2, 0), (20, 3, 0), (20, 4, 0), (20, 5, 1), (20, 6, 1), (20, 7, 1), (20, 8, 1),
  (20, 9, 1), (20, 10, 2), (20, 11, 3), (20, 12, 3)]

/-- Straight-line assignments `doik[i][j] = v` of `setup`, in program order, src/gerg2008.rs:2560-2752. -/
def doikAsg : List (Nat × Nat × Nat) := [
  (3, 1, 1), (3, 2, 1), (3, 3, 2), (3, 4, 3), (3, 5, 3), (3, 6, 3), (3, 7, 4), (3, 8, 5),
  (3, 9, 6), (3, 10, 6), (3, 11, 1), (3, 12, 4), (3, 13, 1), (3, 14, 1), (3, 15, 3), (3, 16, 3),
  (3, 17, 4), (3, 18, 5), (3, 19, 5), (3, 20, 5), (3, 21, 5), (3, 22, 5), (15, 1, 1), (15, 2, 1),
  (15, 3, 2), (15, 4, 2), (15, 5, 4), (15, 6, 1), (15, 7, 5), (15, 8, 5), (15, 9, 5),
  (15, 10, 1), (15, 11, 1), (15, 12, 2), (15, 13, 5), (15, 14, 1), (18, 1, 1), (18, 2, 1),
  (18, 3, 1), (18, 4, 2), (18, 5, 2), (18, 6, 3), (18, 7, 4), (18, 8, 1), (18, 9, 5),
  (18, 10, 5), (18, 11, 1), (18, 12, 2), (18, 13, 4), (18, 14, 4), (18, 15, 1), (18, 16, 1),
  (20, 1, 1), (20, 2, 1), (20, 3, 1), (20, 4, 4), (20, 5, 1), (20, 6, 3), (20, 7, 5), (20, 8, 5),
  (20, 9, 5), (20, 10, 2), (20, 11, 1), (20, 12, 2)]

/-- Straight-line assignments `toik[i][j] = v` of `setup`, in program order, src/gerg2008.rs:2561-2753. -/
def toikAsg : List (Nat × Nat × Dec) := [
  (3, 1, dc 0 0), (3, 2, dc 125 2), (3, 3, dc 1625 3), (3, 4, dc 375 3), (3, 5, dc 375 3),
  (3, 6, dc 1375 3), (3, 7, dc 1125 3), (3, 8, dc 1375 3), (3, 9, dc 125 3), (3, 10, dc 1625 3),
  (3, 11, dc 375 2), (3, 12, dc 35 1), (3, 13, dc 75 1), (3, 14, dc 8 0), (3, 15, dc 6 0),
  (3, 16, dc 16 0), (3, 17, dc 11 0), (3, 18, dc 24 0), (3, 19, dc 26 0), (3, 20, dc 28 0),
  (3, 21, dc 24 0), (3, 22, dc 26 0), (15, 1, dc 5 1), (15, 2, dc 625 3), (15, 3, dc 375 3),
  (15, 4, dc 625 3), (15, 5, dc 1125 3), (15, 6, dc 2625 3), (15, 7, dc 0 0), (15, 8, dc 25 2),
  (15, 9, dc 1375 3), (15, 10, dc 4 0), (15, 11, dc 425 2), (15, 12, dc 5 0), (15, 13, dc 8 0),
  (15, 14, dc 8 0), (18, 1, dc 5 1), (18, 2, dc 125 2), (18, 3, dc 1875 3), (18, 4, dc 125 3),
  (18, 5, dc 15 1), (18, 6, dc 1 0), (18, 7, dc 75 2), (18, 8, dc 15 1), (18, 9, dc 625 3),
  (18, 10, dc 2625 3), (18, 11, dc 5 0), (18, 12, dc 4 0), (18, 13, dc 45 1), (18, 14, dc 3 0),
  (18, 15, dc 4 0), (18, 16, dc 6 0), (20, 1, dc 0 0), (20, 2, dc 125 3), (20, 3, dc 75 2),
  (20, 4, dc 1 0), (20, 5, dc 75 2), (20, 6, dc 2625 3), (20, 7, dc 125 3), (20, 8, dc 125 2),
  (20, 9, dc 2 0), (20, 10, dc 1 0), (20, 11, dc 45 1), (20, 12, dc 5 0)]

/-- Straight-line assignments `dijk[i][j] = v` of `setup`, in program order, src/gerg2008.rs:2757-3184. -/
def dijkAsg : List (Nat × Nat × Nat) := [
  (3, 1, 1), (3, 2, 4), (3, 3, 1), (3, 4, 2), (3, 5, 2), (3, 6, 2), (3, 7, 2), (3, 8, 2),
  (3, 9, 3), (4, 1, 1), (4, 2, 2), (4, 3, 3), (4, 4, 1), (4, 5, 2), (4, 6, 3), (1, 1, 3),
  (1, 2, 4), (1, 3, 1), (1, 4, 2), (1, 5, 2), (1, 6, 2), (1, 7, 2), (1, 8, 2), (1, 9, 2),
  (1, 10, 3), (1, 11, 3), (1, 12, 3), (2, 1, 3), (2, 2, 3), (2, 3, 4), (2, 4, 4), (2, 5, 4),
  (2, 6, 1), (2, 7, 1), (2, 8, 1), (2, 9, 2), (5, 1, 2), (5, 2, 3), (5, 3, 1), (5, 4, 1),
  (5, 5, 1), (5, 6, 2), (6, 1, 2), (6, 2, 2), (6, 3, 3), (6, 4, 1), (6, 5, 2), (6, 6, 2),
  (7, 1, 1), (7, 2, 3), (7, 3, 3), (7, 4, 4), (10, 1, 1), (10, 2, 1), (10, 3, 1), (10, 4, 2),
  (10, 5, 2), (10, 6, 3), (10, 7, 3), (10, 8, 4), (10, 9, 4), (10, 10, 4)]

/-- Straight-line assignments `tijk[i][j] = v` of `setup`, in program order, src/gerg2008.rs:2758-3185. -/
def tijkAsg : List (Nat × Nat × Dec) := [
  (3, 1, dc 0 0), (3, 2, dc 185 2), (3, 3, dc 785 2), (3, 4, dc 54 1), (3, 5, dc 0 0),
  (3, 6, dc 75 2), (3, 7, dc 28 1), (3, 8, dc 445 2), (3, 9, dc 425 2), (4, 1, dc 26 1),
  (4, 2, dc 195 2), (4, 3, dc 0 0), (4, 4, dc 395 2), (4, 5, dc 795 2), (4, 6, dc 8 0),
  (1, 1, dc 65 2), (1, 2, dc 155 2), (1, 3, dc 31 1), (1, 4, dc 59 1), (1, 5, dc 705 2),
  (1, 6, dc 335 2), (1, 7, dc 12 1), (1, 8, dc 58 1), (1, 9, dc 27 1), (1, 10, dc 45 2),
  (1, 11, dc 55 2), (1, 12, dc 195 2), (2, 1, dc 185 2), (2, 2, dc 395 2), (2, 3, dc 0 0),
  (2, 4, dc 185 2), (2, 5, dc 385 2), (2, 6, dc 525 2), (2, 7, dc 385 2), (2, 8, dc 2 1),
  (2, 9, dc 65 1), (5, 1, dc 185 2), (5, 2, dc 14 1), (5, 3, dc 32 1), (5, 4, dc 25 1),
  (5, 5, dc 8 0), (5, 6, dc 375 2), (6, 1, dc 0 0), (6, 2, dc 5 2), (6, 3, dc 0 0),
  (6, 4, dc 365 2), (6, 5, dc 49 1), (6, 6, dc 445 2), (7, 1, dc 2 0), (7, 2, dc (-1) 0),
  (7, 3, dc 175 2), (7, 4, dc 14 1), (10, 1, dc 1 0), (10, 2, dc 155 2), (10, 3, dc 17 1),
  (10, 4, dc 25 2), (10, 5, dc 135 2), (10, 6, dc 0 0), (10, 7, dc 125 2), (10, 8, dc 0 0),
  (10, 9, dc 7 1), (10, 10, dc 54 1)]

/-- Straight-line assignments `cijk[i][j] = v` of `setup`, in program order, src/gerg2008.rs:2759-3186. -/
def cijkAsg : List (Nat × Nat × Dec) := [
  (3, 1, dc 0 0), (3, 2, dc 0 0), (3, 3, dc 1 0), (3, 4, dc 1 0), (3, 5, dc 25 2),
  (3, 6, dc 0 0), (3, 7, dc 0 0), (3, 8, dc 0 0), (3, 9, dc 0 0), (4, 1, dc 0 0), (4, 2, dc 0 0),
  (4, 3, dc 0 0), (4, 4, dc 1 0), (4, 5, dc 5 1), (4, 6, dc 0 0), (1, 1, dc 0 0), (1, 2, dc 0 0),
  (1, 3, dc 1 0), (1, 4, dc 1 0), (1, 5, dc 1 0), (1, 6, dc 875 3), (1, 7, dc 75 2),
  (1, 8, dc 5 1), (1, 9, dc 0 0), (1, 10, dc 0 0), (1, 11, dc 0 0), (1, 12, dc 0 0),
  (2, 1, dc 0 0), (2, 2, dc 0 0), (2, 3, dc 0 0), (2, 4, dc 0 0), (2, 5, dc 0 0),
  (2, 6, dc 25 2), (2, 7, dc 25 2), (2, 8, dc 0 0), (2, 9, dc 0 0), (5, 1, dc 0 0),
  (5, 2, dc 0 0), (5, 3, dc 25 2), (5, 4, dc 25 2), (5, 5, dc 0 0), (5, 6, dc 0 0),
  (6, 1, dc 0 0), (6, 2, dc 0 0), (6, 3, dc 0 0), (6, 4, dc 1 0), (6, 5, dc 1 0),
  (6, 6, dc 875 3), (7, 1, dc 0 0), (7, 2, dc 0 0), (7, 3, dc 0 0), (7, 4, dc 0 0),
  (10, 1, dc 0 0), (10, 2, dc 0 0), (10, 3, dc 0 0), (10, 4, dc 0 0), (10, 5, dc 0 0),
  (10, 6, dc 0 0), (10, 7, dc 0 0), (10, 8, dc 0 0), (10, 9, dc 0 0), (10, 10, dc 0 0)]

/-- Straight-line assignments `eijk[i][j] = v` of `setup`, in program order, src/gerg2008.rs:2760-3187. -/
def eijkAsg : List (Nat × Nat × Dec) := [
  (3, 1, dc 0 0), (3, 2, dc 0 0), (3, 3, dc 5 1), (3, 4, dc 5 1), (3, 5, dc 5 1), (3, 6, dc 5 1),
  (3, 7, dc 5 1), (3, 8, dc 5 1), (3, 9, dc 5 1), (4, 1, dc 0 0), (4, 2, dc 0 0), (4, 3, dc 0 0),
  (4, 4, dc 5 1), (4, 5, dc 5 1), (4, 6, dc 5 1), (1, 1, dc 0 0), (1, 2, dc 0 0), (1, 3, dc 5 1),
  (1, 4, dc 5 1), (1, 5, dc 5 1), (1, 6, dc 5 1), (1, 7, dc 5 1), (1, 8, dc 5 1), (1, 9, dc 5 1),
  (1, 10, dc 5 1), (1, 11, dc 5 1), (1, 12, dc 5 1), (2, 1, dc 0 0), (2, 2, dc 0 0),
  (2, 3, dc 0 0), (2, 4, dc 0 0), (2, 5, dc 0 0), (2, 6, dc 5 1), (2, 7, dc 5 1), (2, 8, dc 5 1),
  (2, 9, dc 5 1), (5, 1, dc 0 0), (5, 2, dc 0 0), (5, 3, dc 5 1), (5, 4, dc 5 1), (5, 5, dc 5 1),
  (5, 6, dc 5 1), (6, 1, dc 0 0), (6, 2, dc 0 0), (6, 3, dc 0 0), (6, 4, dc 5 1), (6, 5, dc 5 1),
  (6, 6, dc 5 1), (7, 1, dc 0 0), (7, 2, dc 0 0), (7, 3, dc 0 0), (7, 4, dc 0 0),
  (10, 1, dc 0 0), (10, 2, dc 0 0), (10, 3, dc 0 0), (10, 4, dc 0 0), (10, 5, dc 0 0),
  (10, 6, dc 0 0), (10, 7, dc 0 0), (10, 8, dc 0 0), (10, 9, dc 0 0), (10, 10, dc 0 0)]

/-- Straight-line assignments `bijk[i][j] = v` of `setup`, in program order, src/gerg2008.rs:2761-3188. -/
def bijkAsg : List (Nat × Nat × Dec) := [
  (3, 1, dc 0 0), (3, 2, dc 0 0), (3, 3, dc 1 0), (3, 4, dc 1 0), (3, 5, dc 25 1),
  (3, 6, dc 3 0), (3, 7, dc 3 0), (3, 8, dc 3 0), (3, 9, dc 3 0), (4, 1, dc 0 0), (4, 2, dc 0 0),
  (4, 3, dc 0 0), (4, 4, dc 1 0), (4, 5, dc 2 0), (4, 6, dc 3 0), (1, 1, dc 0 0), (1, 2, dc 0 0),
  (1, 3, dc 1 0), (1, 4, dc 1 0), (1, 5, dc 1 0), (1, 6, dc 125 2), (1, 7, dc 15 1),
  (1, 8, dc 2 0), (1, 9, dc 3 0), (1, 10, dc 3 0), (1, 11, dc 3 0), (1, 12, dc 3 0),
  (2, 1, dc 0 0), (2, 2, dc 0 0), (2, 3, dc 0 0), (2, 4, dc 0 0), (2, 5, dc 0 0),
  (2, 6, dc 75 2), (2, 7, dc 1 0), (2, 8, dc 2 0), (2, 9, dc 3 0), (5, 1, dc 0 0),
  (5, 2, dc 0 0), (5, 3, dc 75 2), (5, 4, dc 1 0), (5, 5, dc 2 0), (5, 6, dc 3 0),
  (6, 1, dc 0 0), (6, 2, dc 0 0), (6, 3, dc 0 0), (6, 4, dc 1 0), (6, 5, dc 1 0),
  (6, 6, dc 125 2), (7, 1, dc 0 0), (7, 2, dc 0 0), (7, 3, dc 0 0), (7, 4, dc 0 0),
  (10, 1, dc 0 0), (10, 2, dc 0 0), (10, 3, dc 0 0), (10, 4, dc 0 0), (10, 5, dc 0 0),
  (10, 6, dc 0 0), (10, 7, dc 0 0), (10, 8, dc 0 0), (10, 9, dc 0 0), (10, 10, dc 0 0)]

/-- Straight-line assignments `gijk[i][j] = v` of `setup`, in program order, src/gerg2008.rs:2762-3189. -/
def gijkAsg : List (Nat × Nat × Dec) := [
  (3, 1, dc 0 0), (3, 2, dc 0 0), (3, 3, dc 5 1), (3, 4, dc 5 1), (3, 5, dc 5 1), (3, 6, dc 5 1),
  (3, 7, dc 5 1), (3, 8, dc 5 1), (3, 9, dc 5 1), (4, 1, dc 0 0), (4, 2, dc 0 0), (4, 3, dc 0 0),
  (4, 4, dc 5 1), (4, 5, dc 5 1), (4, 6, dc 5 1), (1, 1, dc 0 0), (1, 2, dc 0 0), (1, 3, dc 5 1),
  (1, 4, dc 5 1), (1, 5, dc 5 1), (1, 6, dc 5 1), (1, 7, dc 5 1), (1, 8, dc 5 1), (1, 9, dc 5 1),
  (1, 10, dc 5 1), (1, 11, dc 5 1), (1, 12, dc 5 1), (2, 1, dc 0 0), (2, 2, dc 0 0),
  (2, 3, dc 0 0), (2, 4, dc 0 0), (2, 5, dc 0 0), (2, 6, dc 5 1), (2, 7, dc 5 1), (2, 8, dc 5 1),
  (2, 9, dc 5 1), (5, 1, dc 0 0), (5, 2, dc 0 0), (5, 3, dc 5 1), (5, 4, dc 5 1), (5, 5, dc 5 1),
  (5, 6, dc 5 1), (6, 1, dc 0 0), (6, 2, dc 0 0), (6, 3, dc 0 0), (6, 4, dc 5 1), (6, 5, dc 5 1),
  (6, 6, dc 5 1), (7, 1, dc 0 0), (7, 2, dc 0 0), (7, 3, dc 0 0), (7, 4, dc 0 0),
  (10, 1, dc 0 0), (10, 2, dc 0 0), (10, 3, dc 0 0), (10, 4, dc 0 0), (10, 5, dc 0 0),
  (10, 6, dc 0 0), (10, 7, dc 0 0), (10, 8, dc 0 0), (10, 9, dc 0 0), (10, 10, dc 0 0)]

/-- Straight-line assignments `nijk[i][j] = v` of `setup`, in program order, src/gerg2008.rs:2763-3190. -/
def nijkAsg : List (Nat × Nat × Dec) := [
  (3, 1, dc (-98038985517335) 16), (3, 2, dc 42487270143005 17), (3, 3, dc (-34800214576142) 15),
  (3, 4, dc (-13333813013896) 14), (3, 5, dc (-11993694974627) 15), (3, 6, dc 69243379775168 15),
  (3, 7, dc (-31022508148249) 14), (3, 8, dc 24495491753226 14), (3, 9, dc 22369816716981 14),
  (4, 1, dc (-10859387354942) 14), (4, 2, dc 80228576727389 15), (4, 3, dc (-93303985115717) 16),
  (4, 4, dc 40989274005848 15), (4, 5, dc (-24338019772494) 14), (4, 6, dc 23855347281124 14),
  (1, 1, dc (-80926050298746) 17), (1, 2, dc (-75381925080059) 17),
  (1, 3, dc (-41618768891219) 15), (1, 4, dc (-23452173681569) 14), (1, 5, dc 14003840584586 14),
  (1, 6, dc 63281744807738 15), (1, 7, dc (-34660425848809) 15), (1, 8, dc (-23918747334251) 14),
  (1, 9, dc 19855255066891 16), (1, 10, dc 61777746171555 13), (1, 11, dc (-69575358271105) 13),
  (1, 12, dc 10630185306388 13), (2, 1, dc 13746429958576 15), (2, 2, dc (-74425012129552) 16),
  (2, 3, dc (-45516600213685) 16), (2, 4, dc (-54546603350237) 16), (2, 5, dc 23682016824471 16),
  (2, 6, dc 18007763721438 14), (2, 7, dc (-44773942932486) 14), (2, 8, dc 193273748882 13),
  (2, 9, dc (-30632197804624) 14), (5, 1, dc 28661625028399 14), (5, 2, dc (-10919833861247) 14),
  (5, 3, dc (-1137403208227) 12), (5, 4, dc 76580544237358 14), (5, 5, dc 42638000926819 16),
  (5, 6, dc 17673538204534 14), (6, 1, dc (-47376518126608) 14), (6, 2, dc 48961193461001 14),
  (6, 3, dc (-57011062090535) 16), (6, 4, dc (-1996682004132) 13),
  (6, 5, dc (-69411103101723) 14), (6, 6, dc 69226192739021 14), (7, 1, dc (-25157134971934) 14),
  (7, 2, dc (-62203841111983) 16), (7, 3, dc 88850315184396 15), (7, 4, dc (-35592212573239) 15),
  (10, 1, dc 25574776844118 13), (10, 2, dc (-79846357136353) 13), (10, 3, dc 47859131465806 13),
  (10, 4, dc (-73265392369587) 14), (10, 5, dc 13805471345312 13), (10, 6, dc 28349603476365 14),
  (10, 7, dc (-49087385940425) 14), (10, 8, dc (-10291888921447) 14),
  (10, 9, dc 11836314681968 14), (10, 10, dc 55527385721943 18)]

/-- Straight-line assignments `n0i[i][j] = v` of `setup`, in program order, src/gerg2008.rs:3192-3338. -/
def n0iAsg : List (Nat × Nat × Dec) := [
  (1, 3, dc 400088 5), (1, 4, dc 76315 5), (1, 5, dc 46 4), (1, 6, dc 874432 5),
  (1, 7, dc (-446921) 5), (1, 1, dc 2983843397 8), (1, 2, dc (-1599969151) 5),
  (2, 3, dc 350031 5), (2, 4, dc 13732 5), (2, 5, dc (-1466) 4), (2, 6, dc 90066 5),
  (2, 7, dc 0 0), (2, 1, dc 1756770785 8), (2, 2, dc (-2801729072) 6), (3, 3, dc 350002 5),
  (3, 4, dc 204452 5), (3, 5, dc (-106044) 5), (3, 6, dc 203366 5), (3, 7, dc 1393 5),
  (3, 1, dc 2065844696 8), (3, 2, dc (-4902171516) 6), (4, 3, dc 400263 5), (4, 4, dc 433939 5),
  (4, 5, dc 123722 5), (4, 6, dc 131974 4), (4, 7, dc (-601989) 5), (4, 1, dc 3673005938 8),
  (4, 2, dc (-2363965301) 5), (5, 3, dc 402939 5), (5, 4, dc 660569 5), (5, 5, dc 3197 3),
  (5, 6, dc 191921 4), (5, 7, dc (-837267) 5), (5, 1, dc 4470909619 8),
  (5, 2, dc (-3123663551) 5), (6, 3, dc 406714 5), (6, 4, dc 897575 5), (6, 5, dc 525156 5),
  (6, 6, dc 251423 4), (6, 7, dc 161388 4), (6, 1, dc 3430180349 8), (6, 2, dc (-3852550276) 5),
  (7, 3, dc 433944 5), (7, 4, dc 944893 5), (7, 5, dc 689406 5), (7, 6, dc 244618 4),
  (7, 7, dc 147824 4), (7, 1, dc 3653237783 8), (7, 2, dc (-3895780933) 5), (8, 3, dc 4 0),
  (8, 4, dc 117618 4), (8, 5, dc 201101 4), (8, 6, dc 331688 4), (8, 7, dc 0 0),
  (8, 1, dc 4317218626 8), (8, 2, dc (-5119830946) 5), (9, 3, dc 4 0), (9, 4, dc 895043 5),
  (9, 5, dc 21836 3), (9, 6, dc 334032 4), (9, 7, dc 0 0), (9, 1, dc 4267837089 8),
  (9, 2, dc (-4521583) 2), (10, 3, dc 4 0), (10, 4, dc 116977 4), (10, 5, dc 268142 4),
  (10, 6, dc 386164 4), (10, 7, dc 0 0), (10, 1, dc 4699717188 8), (10, 2, dc (-5274683318) 5),
  (11, 3, dc 4 0), (11, 4, dc 137266 4), (11, 5, dc 304707 4), (11, 6, dc 435561 4),
  (11, 7, dc 0 0), (11, 1, dc 5207631631 8), (11, 2, dc (-5710481056) 5), (12, 3, dc 4 0),
  (12, 4, dc 156865 4), (12, 5, dc 338029 4), (12, 6, dc 481731 4), (12, 7, dc 0 0),
  (12, 1, dc 5725830934 8), (12, 2, dc (-6054676385) 5), (13, 3, dc 4 0), (13, 4, dc 180241 4),
  (13, 5, dc 381235 4), (13, 6, dc 533415 4), (13, 7, dc 0 0), (13, 1, dc 6209646901 8),
  (13, 2, dc (-6660012837) 5), (14, 3, dc 4 0), (14, 4, dc 210069 4), (14, 5, dc 434931 4),
  (14, 6, dc 583657 4), (14, 7, dc 0 0), (14, 1, dc 6593909154 8), (14, 2, dc (-7413145483) 5),
  (15, 3, dc 247906 5), (15, 4, dc 95806 5), (15, 5, dc 45444 5), (15, 6, dc 156039 5),
  (15, 7, dc (-13756) 4), (15, 1, dc 1307520288 8), (15, 2, dc (-5836943696) 6),
  (16, 3, dc 350146 5), (16, 4, dc 107558 5), (16, 5, dc 101334 5), (16, 6, dc 0 0),
  (16, 7, dc 0 0), (16, 1, dc 168017173 7), (16, 2, dc (-231832269) 5), (17, 3, dc 350055 5),
  (17, 4, dc 102865 5), (17, 5, dc 493 5), (17, 6, dc 0 0), (17, 7, dc 0 0),
  (17, 1, dc 1745786899 8), (17, 2, dc (-2635244116) 6), (18, 3, dc 400392 5),
  (18, 4, dc 1059 5), (18, 5, dc 98763 5), (18, 6, dc 306904 5), (18, 7, dc 0 0),
  (18, 1, dc 2157882705 8), (18, 2, dc (-7766733078) 6), (19, 3, dc 4 0), (19, 4, dc 311942 5),
  (19, 5, dc 100243 5), (19, 6, dc 0 0), (19, 7, dc 0 0), (19, 1, dc 215830944 7),
  (19, 2, dc (-6069035869) 6), (20, 3, dc 25 1), (20, 4, dc 0 0), (20, 5, dc 0 0),
  (20, 6, dc 0 0), (20, 7, dc 0 0), (20, 1, dc 1004639507 8), (20, 2, dc (-745375) 3),
  (21, 3, dc 25 1), (21, 4, dc 0 0), (21, 5, dc 0 0), (21, 6, dc 0 0), (21, 7, dc 0 0),
  (21, 1, dc 1004639507 8), (21, 2, dc (-745375) 3)]

/-- Straight-line assignments `bvij[i][j] = v` of `setup`, in program order, src/gerg2008.rs:3340-4179. -/
def bvijAsg : List (Nat × Nat × Dec) := [
  (1, 2, dc 998721377 9), (1, 3, dc 999518072 9), (1, 4, dc 997547866 9), (1, 5, dc 100482707 8),
  (1, 6, dc 1011240388 9), (1, 7, dc 979105972 9), (1, 8, dc 1 0), (1, 9, dc 94833012 8),
  (1, 10, dc 958015294 9), (1, 11, dc 962050831 9), (1, 12, dc 994740603 9),
  (1, 13, dc 1002852287 9), (1, 14, dc 1033086292 9), (1, 15, dc 1 0), (1, 16, dc 1 0),
  (1, 17, dc 997340772 9), (1, 18, dc 1012783169 9), (1, 19, dc 1012599087 9), (1, 20, dc 1 0),
  (1, 21, dc 1034630259 9), (2, 3, dc 977794634 9), (2, 4, dc 978880168 9),
  (2, 5, dc 974424681 9), (2, 6, dc 98641583 8), (2, 7, dc 99608261 8), (2, 8, dc 1 0),
  (2, 9, dc 1 0), (2, 10, dc 1 0), (2, 11, dc 1 0), (2, 12, dc 1 0), (2, 13, dc 1 0),
  (2, 14, dc 1 0), (2, 15, dc 972532065 9), (2, 16, dc 99952177 8), (2, 17, dc 1 0),
  (2, 18, dc 1 0), (2, 19, dc 910394249 9), (2, 20, dc 969501055 9), (2, 21, dc 1004166412 9),
  (3, 4, dc 1002525718 9), (3, 5, dc 996898004 9), (3, 6, dc 1076551882 9),
  (3, 7, dc 1174760923 9), (3, 8, dc 1060793104 9), (3, 9, dc 1024311498 9), (3, 10, dc 1 0),
  (3, 11, dc 1205469976 9), (3, 12, dc 1026169373 9), (3, 13, dc 1 0), (3, 14, dc 1000151132 9),
  (3, 15, dc 904142159 9), (3, 16, dc 1 0), (3, 17, dc 1 0), (3, 18, dc 949055959 9),
  (3, 19, dc 906630564 9), (3, 20, dc 846647561 9), (3, 21, dc 1008392428 9),
  (4, 5, dc 997607277 9), (4, 6, dc 1 0), (4, 7, dc 999157205 9), (4, 8, dc 1 0),
  (4, 9, dc 993851009 9), (4, 10, dc 1 0), (4, 11, dc 1 0), (4, 12, dc 1007469726 9),
  (4, 13, dc 1 0), (4, 14, dc 995676258 9), (4, 15, dc 925367171 9), (4, 16, dc 1 0),
  (4, 17, dc 1 0), (4, 18, dc 1 0), (4, 19, dc 1010817909 9), (4, 20, dc 1 0), (4, 21, dc 1 0),
  (5, 6, dc 999243146 9), (5, 7, dc 999795868 9), (5, 8, dc 1040459289 9),
  (5, 9, dc 1044919431 9), (5, 10, dc 1 0), (5, 11, dc 1 0), (5, 12, dc 1 0), (5, 13, dc 1 0),
  (5, 14, dc 984104227 9), (5, 15, dc 1 0), (5, 16, dc 1 0), (5, 17, dc 1 0), (5, 18, dc 1 0),
  (5, 19, dc 936811219 9), (5, 20, dc 1 0), (5, 21, dc 1 0), (6, 7, dc 999120311 9),
  (6, 8, dc 1 0), (6, 9, dc 1 0), (6, 10, dc 1 0), (6, 11, dc 1 0), (6, 12, dc 1 0),
  (6, 13, dc 1 0), (6, 14, dc 1 0), (6, 15, dc 1 0), (6, 16, dc 1 0), (6, 17, dc 1 0),
  (6, 18, dc 1 0), (6, 19, dc 1012994431 9), (6, 20, dc 1 0), (6, 21, dc 1 0), (7, 8, dc 1 0),
  (7, 9, dc 1 0), (7, 10, dc 1 0), (7, 11, dc 1 0), (7, 12, dc 1 0), (7, 13, dc 1 0),
  (7, 14, dc 976951968 9), (7, 15, dc 1 0), (7, 16, dc 1 0), (7, 17, dc 1 0), (7, 18, dc 1 0),
  (7, 19, dc 908113163 9), (7, 20, dc 1 0), (7, 21, dc 1 0), (8, 9, dc 1 0), (8, 10, dc 1 0),
  (8, 11, dc 1 0), (8, 12, dc 1 0), (8, 13, dc 1 0), (8, 14, dc 1 0), (8, 15, dc 1 0),
  (8, 16, dc 1 0), (8, 17, dc 1 0), (8, 18, dc 1 0), (8, 19, dc 1 0), (8, 20, dc 1 0),
  (8, 21, dc 1 0), (9, 10, dc 1 0), (9, 11, dc 1 0), (9, 12, dc 1 0), (9, 13, dc 1 0),
  (9, 14, dc 1 0), (9, 15, dc 1 0), (9, 16, dc 1 0), (9, 17, dc 1 0), (9, 18, dc 1 0),
  (9, 19, dc 984613203 9), (9, 20, dc 1 0), (9, 21, dc 1 0), (10, 11, dc 1 0), (10, 12, dc 1 0),
  (10, 13, dc 1 0), (10, 14, dc 1001516371 9), (10, 15, dc 1 0), (10, 16, dc 1 0),
  (10, 17, dc 1 0), (10, 18, dc 1 0), (10, 19, dc 754473958 9), (10, 20, dc 1 0),
  (10, 21, dc 1 0), (11, 12, dc 1 0), (11, 13, dc 1 0), (11, 14, dc 1 0), (11, 15, dc 1 0),
  (11, 16, dc 1 0), (11, 17, dc 1 0), (11, 18, dc 1 0), (11, 19, dc 828967164 9),
  (11, 20, dc 1 0), (11, 21, dc 1 0), (12, 13, dc 1 0), (12, 14, dc 1 0), (12, 15, dc 1 0),
  (12, 16, dc 1 0), (12, 17, dc 1 0), (12, 18, dc 1 0), (12, 19, dc 1 0), (12, 20, dc 1 0),
  (12, 21, dc 1 0), (13, 14, dc 1 0), (13, 15, dc 1 0), (13, 16, dc 1 0), (13, 17, dc 1 0),
  (13, 18, dc 1 0), (13, 19, dc 1 0), (13, 20, dc 1 0), (13, 21, dc 1 0),
  (14, 15, dc 1695358382 9), (14, 16, dc 1 0), (14, 17, dc 1 0), (14, 18, dc 1 0),
  (14, 19, dc 975187766 9), (14, 20, dc 1 0), (14, 21, dc 1 0), (15, 16, dc 1 0),
  (15, 17, dc 1 0), (15, 18, dc 1 0), (15, 19, dc 1 0), (15, 20, dc 1 0), (15, 21, dc 1 0),
  (16, 17, dc 1 0), (16, 18, dc 1 0), (16, 19, dc 1 0), (16, 20, dc 1 0),
  (16, 21, dc 999746847 9), (17, 18, dc 1 0), (17, 19, dc 795660392 9), (17, 20, dc 1 0),
  (17, 21, dc 1 0), (18, 19, dc 1 0), (18, 20, dc 1 0), (18, 21, dc 1 0), (19, 20, dc 1 0),
  (19, 21, dc 1 0), (20, 21, dc 1 0)]

/-- Straight-line assignments `gvij[i][j] = v` of `setup`, in program order, src/gerg2008.rs:3341-4180. -/
def gvijAsg : List (Nat × Nat × Dec) := [
  (1, 2, dc 1013950311 9), (1, 3, dc 1002806594 9), (1, 4, dc 1006617867 9),
  (1, 5, dc 1038470657 9), (1, 6, dc 1054319053 9), (1, 7, dc 1045375122 9),
  (1, 8, dc 1343685343 9), (1, 9, dc 1124508039 9), (1, 10, dc 1052643846 9),
  (1, 11, dc 1156655935 9), (1, 12, dc 1116549372 9), (1, 13, dc 1141895355 9),
  (1, 14, dc 1146089637 9), (1, 15, dc 1018702573 9), (1, 16, dc 1 0), (1, 17, dc 1006102927 9),
  (1, 18, dc 1585018334 9), (1, 19, dc 1040161207 9), (1, 20, dc 881405683 9),
  (1, 21, dc 1014678542 9), (2, 3, dc 1047578256 9), (2, 4, dc 1042352891 9),
  (2, 5, dc 1081025408 9), (2, 6, dc 1100576129 9), (2, 7, dc 1146949309 9),
  (2, 8, dc 1154135439 9), (2, 9, dc 1078877166 9), (2, 10, dc 1195952177 9),
  (2, 11, dc 140455409 8), (2, 12, dc 1186067025 9), (2, 13, dc 1100405929 9), (2, 14, dc 1 0),
  (2, 15, dc 970115357 9), (2, 16, dc 997082328 9), (2, 17, dc 1008690943 9),
  (2, 18, dc 1094749685 9), (2, 19, dc 1256844157 9), (2, 20, dc 932629867 9),
  (2, 21, dc 1002212182 9), (3, 4, dc 1032876701 9), (3, 5, dc 1047596298 9),
  (3, 6, dc 1081909003 9), (3, 7, dc 1222437324 9), (3, 8, dc 1116793198 9),
  (3, 9, dc 1068406078 9), (3, 10, dc 851343711 9), (3, 11, dc 1164585914 9),
  (3, 12, dc 1104043935 9), (3, 13, dc 973386152 9), (3, 14, dc 1183394668 9),
  (3, 15, dc 115279255 8), (3, 16, dc 1 0), (3, 17, dc 1 0), (3, 18, dc 1542328793 9),
  (3, 19, dc 1024085837 9), (3, 20, dc 864141549 9), (3, 21, dc 1029205465 9),
  (4, 5, dc 100303472 8), (4, 6, dc 1006616886 9), (4, 7, dc 1006179146 9),
  (4, 8, dc 1045439935 9), (4, 9, dc 1026085655 9), (4, 10, dc 1169701102 9),
  (4, 11, dc 1057666085 9), (4, 12, dc 1071917985 9), (4, 13, dc 114353473 8),
  (4, 14, dc 1098361281 9), (4, 15, dc 110607204 8), (4, 16, dc 1 0), (4, 17, dc 1201417898 9),
  (4, 18, dc 1 0), (4, 19, dc 1030988277 9), (4, 20, dc 1 0), (4, 21, dc 1 0),
  (5, 6, dc 1001156119 9), (5, 7, dc 1003264179 9), (5, 8, dc 999432118 9),
  (5, 9, dc 1019921513 9), (5, 10, dc 1057872566 9), (5, 11, dc 1079648053 9),
  (5, 12, dc 1102764612 9), (5, 13, dc 1199769134 9), (5, 14, dc 1053040574 9),
  (5, 15, dc 107400611 8), (5, 16, dc 1 0), (5, 17, dc 1108143673 9), (5, 18, dc 1011759763 9),
  (5, 19, dc 1010593999 9), (5, 20, dc 1 0), (5, 21, dc 1 0), (6, 7, dc 100041444 8),
  (6, 8, dc 1002284353 9), (6, 9, dc 1002779804 9), (6, 10, dc 1010493989 9),
  (6, 11, dc 1021668316 9), (6, 12, dc 1032807063 9), (6, 13, dc 1047298475 9),
  (6, 14, dc 1060243344 9), (6, 15, dc 1147595688 9), (6, 16, dc 1 0), (6, 17, dc 1087272232 9),
  (6, 18, dc 1 0), (6, 19, dc 988591117 9), (6, 20, dc 1 0), (6, 21, dc 1 0),
  (7, 8, dc 1002728434 9), (7, 9, dc 101815965 8), (7, 10, dc 1034995284 9),
  (7, 11, dc 1019174227 9), (7, 12, dc 1046905515 9), (7, 13, dc 1049219137 9),
  (7, 14, dc 1027845529 9), (7, 15, dc 1232939523 9), (7, 16, dc 1 0), (7, 17, dc 1084740904 9),
  (7, 18, dc 1223638763 9), (7, 19, dc 1033366041 9), (7, 20, dc 1 0), (7, 21, dc 1214638734 9),
  (8, 9, dc 1000024335 9), (8, 10, dc 1002995876 9), (8, 11, dc 1009928206 9),
  (8, 12, dc 1017880545 9), (8, 13, dc 1028994325 9), (8, 14, dc 1039372957 9),
  (8, 15, dc 1184340443 9), (8, 16, dc 1 0), (8, 17, dc 1116694577 9), (8, 18, dc 1 0),
  (8, 19, dc 835763343 9), (8, 20, dc 1 0), (8, 21, dc 1 0), (9, 10, dc 1002480637 9),
  (9, 11, dc 1008972412 9), (9, 12, dc 1069223964 9), (9, 13, dc 1034910633 9),
  (9, 14, dc 1016370338 9), (9, 15, dc 1188334783 9), (9, 16, dc 1 0), (9, 17, dc 1119954454 9),
  (9, 18, dc 95667731 8), (9, 19, dc 1076539234 9), (9, 20, dc 1 0), (9, 21, dc 1 0),
  (10, 11, dc 1001508227 9), (10, 12, dc 1006268954 9), (10, 13, dc 102076168 8),
  (10, 14, dc 1013511439 9), (10, 15, dc 1243461678 9), (10, 16, dc 1 0),
  (10, 17, dc 1155145836 9), (10, 18, dc 1170217596 9), (10, 19, dc 1339283552 9),
  (10, 20, dc 1 0), (10, 21, dc 1 0), (11, 12, dc 1006767176 9), (11, 13, dc 1001370076 9),
  (11, 14, dc 1002972346 9), (11, 15, dc 1159131722 9), (11, 16, dc 1 0),
  (11, 17, dc 1190354273 9), (11, 18, dc 1 0), (11, 19, dc 1087956749 9), (11, 20, dc 1 0),
  (11, 21, dc 1 0), (12, 13, dc 1001357085 9), (12, 14, dc 1002553544 9),
  (12, 15, dc 1305249405 9), (12, 16, dc 1 0), (12, 17, dc 1219206702 9),
  (12, 18, dc 599484191 9), (12, 19, dc 1 0), (12, 20, dc 1 0), (12, 21, dc 1 0),
  (13, 14, dc 100081052 8), (13, 15, dc 1342647661 9), (13, 16, dc 1 0),
  (13, 17, dc 1252151449 9), (13, 18, dc 1 0), (13, 19, dc 1082905109 9), (13, 20, dc 1 0),
  (13, 21, dc 1 0), (14, 15, dc 1120233729 9), (14, 16, dc 1 0), (14, 17, dc 87018496 8),
  (14, 18, dc 551405318 9), (14, 19, dc 1171714677 9), (14, 20, dc 1 0), (14, 21, dc 1 0),
  (15, 16, dc 1 0), (15, 17, dc 1121416201 9), (15, 18, dc 1 0), (15, 19, dc 1 0),
  (15, 20, dc 1 0), (15, 21, dc 1 0), (16, 17, dc 1 0), (16, 18, dc 1143174289 9),
  (16, 19, dc 1 0), (16, 20, dc 1 0), (16, 21, dc 993907223 9), (17, 18, dc 1 0),
  (17, 19, dc 1101731308 9), (17, 20, dc 1 0), (17, 21, dc 1159720623 9),
  (18, 19, dc 1014832832 9), (18, 20, dc 1 0), (18, 21, dc 1038993495 9), (19, 20, dc 1 0),
  (19, 21, dc 1 0), (20, 21, dc 1 0)]

/-- Straight-line assignments `btij[i][j] = v` of `setup`, in program order, src/gerg2008.rs:3342-4181. -/
def btijAsg : List (Nat × Nat × Dec) := [
  (1, 2, dc 99809883 8), (1, 3, dc 102262449 8), (1, 4, dc 996336508 9), (1, 5, dc 989680305 9),
  (1, 6, dc 980315756 9), (1, 7, dc 99417491 8), (1, 8, dc 1 0), (1, 9, dc 992127525 9),
  (1, 10, dc 981844797 9), (1, 11, dc 977431529 9), (1, 12, dc 957473785 9),
  (1, 13, dc 947716769 9), (1, 14, dc 937777823 9), (1, 15, dc 1 0), (1, 16, dc 1 0),
  (1, 17, dc 987411732 9), (1, 18, dc 1063333913 9), (1, 19, dc 1011090031 9), (1, 20, dc 1 0),
  (1, 21, dc 990954281 9), (2, 3, dc 1005894529 9), (2, 4, dc 1007671428 9),
  (2, 5, dc 1002677329 9), (2, 6, dc 99286813 8), (2, 7, dc 994515234 9), (2, 8, dc 1 0),
  (2, 9, dc 1 0), (2, 10, dc 1 0), (2, 11, dc 1 0), (2, 12, dc 1 0), (2, 13, dc 95637945 8),
  (2, 14, dc 957934447 9), (2, 15, dc 946134337 9), (2, 16, dc 997190589 9), (2, 17, dc 1 0),
  (2, 18, dc 1 0), (2, 19, dc 1004692366 9), (2, 20, dc 692868765 9), (2, 21, dc 999069843 9),
  (3, 4, dc 1013871147 9), (3, 5, dc 1033620538 9), (3, 6, dc 1023339824 9),
  (3, 7, dc 1018171004 9), (3, 8, dc 1019180957 9), (3, 9, dc 1027000795 9), (3, 10, dc 1 0),
  (3, 11, dc 1011806317 9), (3, 12, dc 102969078 8), (3, 13, dc 100768862 8),
  (3, 14, dc 102002879 8), (3, 15, dc 942320195 9), (3, 16, dc 1 0), (3, 17, dc 1 0),
  (3, 18, dc 997372205 9), (3, 19, dc 1016034583 9), (3, 20, dc 76837763 8),
  (3, 21, dc 996512863 9), (4, 5, dc 996199694 9), (4, 6, dc 1 0), (4, 7, dc 999130554 9),
  (4, 8, dc 1 0), (4, 9, dc 998688946 9), (4, 10, dc 1 0), (4, 11, dc 1 0),
  (4, 12, dc 984068272 9), (4, 13, dc 1 0), (4, 14, dc 970918061 9), (4, 15, dc 932969831 9),
  (4, 16, dc 1 0), (4, 17, dc 1 0), (4, 18, dc 1 0), (4, 19, dc 990197354 9), (4, 20, dc 1 0),
  (4, 21, dc 1 0), (5, 6, dc 998012298 9), (5, 7, dc 1000310289 9), (5, 8, dc 994364425 9),
  (5, 9, dc 996484021 9), (5, 10, dc 1 0), (5, 11, dc 1 0), (5, 12, dc 1 0), (5, 13, dc 1 0),
  (5, 14, dc 985331233 9), (5, 15, dc 1 0), (5, 16, dc 1 0), (5, 17, dc 1 0), (5, 18, dc 1 0),
  (5, 19, dc 992573556 9), (5, 20, dc 1 0), (5, 21, dc 1 0), (6, 7, dc 999922459 9),
  (6, 8, dc 1 0), (6, 9, dc 1 0), (6, 10, dc 1 0), (6, 11, dc 1 0), (6, 12, dc 1 0),
  (6, 13, dc 1 0), (6, 14, dc 1 0), (6, 15, dc 1 0), (6, 16, dc 1 0), (6, 17, dc 1 0),
  (6, 18, dc 1 0), (6, 19, dc 974550548 9), (6, 20, dc 1 0), (6, 21, dc 1 0), (7, 8, dc 1 0),
  (7, 9, dc 1 0), (7, 10, dc 1 0), (7, 11, dc 1 0), (7, 12, dc 1 0), (7, 13, dc 1 0),
  (7, 14, dc 993688386 9), (7, 15, dc 1 0), (7, 16, dc 1 0), (7, 17, dc 1 0), (7, 18, dc 1 0),
  (7, 19, dc 985962886 9), (7, 20, dc 1 0), (7, 21, dc 1 0), (8, 9, dc 1 0), (8, 10, dc 1 0),
  (8, 11, dc 1 0), (8, 12, dc 1 0), (8, 13, dc 1 0), (8, 14, dc 1 0), (8, 15, dc 1 0),
  (8, 16, dc 1 0), (8, 17, dc 1 0), (8, 18, dc 1 0), (8, 19, dc 1 0), (8, 20, dc 1 0),
  (8, 21, dc 1 0), (9, 10, dc 1 0), (9, 11, dc 1 0), (9, 12, dc 1 0), (9, 13, dc 1 0),
  (9, 14, dc 1 0), (9, 15, dc 1 0), (9, 16, dc 1 0), (9, 17, dc 1 0), (9, 18, dc 1 0),
  (9, 19, dc 962006651 9), (9, 20, dc 1 0), (9, 21, dc 1 0), (10, 11, dc 1 0), (10, 12, dc 1 0),
  (10, 13, dc 1 0), (10, 14, dc 99764101 8), (10, 15, dc 1 0), (10, 16, dc 1 0),
  (10, 17, dc 1 0), (10, 18, dc 1 0), (10, 19, dc 985891113 9), (10, 20, dc 1 0),
  (10, 21, dc 1 0), (11, 12, dc 1 0), (11, 13, dc 1 0), (11, 14, dc 1 0), (11, 15, dc 1 0),
  (11, 16, dc 1 0), (11, 17, dc 1 0), (11, 18, dc 1 0), (11, 19, dc 988937417 9),
  (11, 20, dc 1 0), (11, 21, dc 1 0), (12, 13, dc 1 0), (12, 14, dc 1 0), (12, 15, dc 1 0),
  (12, 16, dc 1 0), (12, 17, dc 1 0), (12, 18, dc 1 0), (12, 19, dc 1 0), (12, 20, dc 1 0),
  (12, 21, dc 1 0), (13, 14, dc 1 0), (13, 15, dc 1 0), (13, 16, dc 1 0), (13, 17, dc 1 0),
  (13, 18, dc 1 0), (13, 19, dc 1 0), (13, 20, dc 1 0), (13, 21, dc 1 0),
  (14, 15, dc 1064818089 9), (14, 16, dc 1 0), (14, 17, dc 1049594632 9),
  (14, 18, dc 897162268 9), (14, 19, dc 973091413 9), (14, 20, dc 1 0), (14, 21, dc 1 0),
  (15, 16, dc 1 0), (15, 17, dc 1 0), (15, 18, dc 1 0), (15, 19, dc 1 0), (15, 20, dc 1 0),
  (15, 21, dc 1 0), (16, 17, dc 1 0), (16, 18, dc 1 0), (16, 19, dc 1 0), (16, 20, dc 1 0),
  (16, 21, dc 1000023103 9), (17, 18, dc 1 0), (17, 19, dc 1025536736 9), (17, 20, dc 1 0),
  (17, 21, dc 1 0), (18, 19, dc 1 0), (18, 20, dc 1 0), (18, 21, dc 1 0), (19, 20, dc 1 0),
  (19, 21, dc 1 0), (20, 21, dc 1 0)]

/-- Straight-line assignments `gtij[i][j] = v` of `setup`, in program order, src/gerg2008.rs:3343-4182. -/
def gtijAsg : List (Nat × Nat × Dec) := [
  (1, 2, dc 979273013 9), (1, 3, dc 975665369 9), (1, 4, dc 1049707697 9),
  (1, 5, dc 1098655531 9), (1, 6, dc 1161117729 9), (1, 7, dc 1171607691 9),
  (1, 8, dc 1188899743 9), (1, 9, dc 1249173968 9), (1, 10, dc 1330570181 9),
  (1, 11, dc 1379850328 9), (1, 12, dc 1449245409 9), (1, 13, dc 1528532478 9),
  (1, 14, dc 1568231489 9), (1, 15, dc 1352643115 9), (1, 16, dc 95 2), (1, 17, dc 987473033 9),
  (1, 18, dc 775810513 9), (1, 19, dc 961155729 9), (1, 20, dc 3159776855 9),
  (1, 21, dc 989843388 9), (2, 3, dc 1107654104 9), (2, 4, dc 1098650964 9),
  (2, 5, dc 1201264026 9), (2, 6, dc 1284462634 9), (2, 7, dc 1304886838 9),
  (2, 8, dc 138177077 8), (2, 9, dc 1419029041 9), (2, 10, dc 1472607971 9),
  (2, 11, dc 1520975334 9), (2, 12, dc 1733280051 9), (2, 13, dc 1749119996 9),
  (2, 14, dc 1822157123 9), (2, 15, dc 1175696583 9), (2, 16, dc 995157044 9),
  (2, 17, dc 993425388 9), (2, 18, dc 968808467 9), (2, 19, dc 9601742 7),
  (2, 20, dc 147183158 8), (2, 21, dc 990034831 9), (3, 4, dc 90094953 8),
  (3, 5, dc 908772477 9), (3, 6, dc 929982936 9), (3, 7, dc 911498231 9), (3, 8, dc 961218039 9),
  (3, 9, dc 979217302 9), (3, 10, dc 1038675574 9), (3, 11, dc 1046169823 9),
  (3, 12, dc 1074455386 9), (3, 13, dc 1140671202 9), (3, 14, dc 1145512213 9),
  (3, 15, dc 1782924792 9), (3, 16, dc 1 0), (3, 17, dc 1 0), (3, 18, dc 775453996 9),
  (3, 19, dc 92601888 8), (3, 20, dc 3207456948 9), (3, 21, dc 1050971635 9),
  (4, 5, dc 101473019 8), (4, 6, dc 1033283811 9), (4, 7, dc 1034832749 9),
  (4, 8, dc 1021150247 9), (4, 9, dc 1066665676 9), (4, 10, dc 1092177796 9),
  (4, 11, dc 1134532014 9), (4, 12, dc 1168636194 9), (4, 13, dc 105603303 8),
  (4, 14, dc 1237191558 9), (4, 15, dc 1902008495 9), (4, 16, dc 1 0), (4, 17, dc 1069224728 9),
  (4, 18, dc 1 0), (4, 19, dc 90273666 8), (4, 20, dc 1 0), (4, 21, dc 1 0),
  (5, 6, dc 1005250774 9), (5, 7, dc 1007392782 9), (5, 8, dc 10032695 7),
  (5, 9, dc 1008344412 9), (5, 10, dc 1025657518 9), (5, 11, dc 1050044169 9),
  (5, 12, dc 1063694129 9), (5, 13, dc 1109973833 9), (5, 14, dc 1140905252 9),
  (5, 15, dc 2308215191 9), (5, 16, dc 1 0), (5, 17, dc 1197564208 9), (5, 18, dc 600340961 9),
  (5, 19, dc 905829247 9), (5, 20, dc 1 0), (5, 21, dc 1 0), (6, 7, dc 1001432824 9),
  (6, 8, dc 1001835788 9), (6, 9, dc 1002495889 9), (6, 10, dc 1006018054 9),
  (6, 11, dc 100988576 8), (6, 12, dc 1013945424 9), (6, 13, dc 1017817492 9),
  (6, 14, dc 1021624748 9), (6, 15, dc 1895305393 9), (6, 16, dc 1 0), (6, 17, dc 1161390082 9),
  (6, 18, dc 1 0), (6, 19, dc 937130844 9), (6, 20, dc 1 0), (6, 21, dc 1 0),
  (7, 8, dc 1000792201 9), (7, 9, dc 100214364 8), (7, 10, dc 100915706 8),
  (7, 11, dc 1021283378 9), (7, 12, dc 1033180106 9), (7, 13, dc 1014096448 9),
  (7, 14, dc 1076466918 9), (7, 15, dc 2509259945 9), (7, 16, dc 1 0), (7, 17, dc 1173916162 9),
  (7, 18, dc 615512682 9), (7, 19, dc 926156602 9), (7, 20, dc 1 0), (7, 21, dc 1245039498 9),
  (8, 9, dc 1000050537 9), (8, 10, dc 1001204174 9), (8, 11, dc 1003194615 9),
  (8, 12, dc 100564748 8), (8, 13, dc 1008191499 9), (8, 14, dc 1010825138 9),
  (8, 15, dc 1996386669 9), (8, 16, dc 1 0), (8, 17, dc 1199326059 9), (8, 18, dc 1 0),
  (8, 19, dc 982651529 9), (8, 20, dc 1 0), (8, 21, dc 1 0), (9, 10, dc 1000761237 9),
  (9, 11, dc 1002441051 9), (9, 12, dc 1016422347 9), (9, 13, dc 1103421755 9),
  (9, 14, dc 1049035838 9), (9, 15, dc 2013859174 9), (9, 16, dc 1 0), (9, 17, dc 1206043295 9),
  (9, 18, dc 447666011 9), (9, 19, dc 959065662 9), (9, 20, dc 1 0), (9, 21, dc 1 0),
  (10, 11, dc 999762786 9), (10, 12, dc 1001633952 9), (10, 13, dc 1055369591 9),
  (10, 14, dc 1028939539 9), (10, 15, dc 3021197546 9), (10, 16, dc 1 0),
  (10, 17, dc 1233272781 9), (10, 18, dc 569681333 9), (10, 19, dc 956075596 9),
  (10, 20, dc 1 0), (10, 21, dc 1 0), (11, 12, dc 998793111 9), (11, 13, dc 1001150096 9),
  (11, 14, dc 1002229938 9), (11, 15, dc 3169143057 9), (11, 16, dc 1 0),
  (11, 17, dc 1256123503 9), (11, 18, dc 1 0), (11, 19, dc 1013453092 9), (11, 20, dc 1 0),
  (11, 21, dc 1 0), (12, 13, dc 1000235044 9), (12, 14, dc 1007186267 9),
  (12, 15, dc 2191555216 9), (12, 16, dc 1 0), (12, 17, dc 1276565536 9),
  (12, 18, dc 662072469 9), (12, 19, dc 1 0), (12, 20, dc 1 0), (12, 21, dc 1 0),
  (13, 14, dc 1000182392 9), (13, 15, dc 223435404 8), (13, 16, dc 1 0),
  (13, 17, dc 1294070556 9), (13, 18, dc 1 0), (13, 19, dc 1086557826 9), (13, 20, dc 1 0),
  (13, 21, dc 1 0), (14, 15, dc 3786003724 9), (14, 16, dc 1 0), (14, 17, dc 1803567587 9),
  (14, 18, dc 740416402 9), (14, 19, dc 1103693489 9), (14, 20, dc 1 0), (14, 21, dc 1 0),
  (15, 16, dc 1 0), (15, 17, dc 1377504607 9), (15, 18, dc 1 0), (15, 19, dc 1 0),
  (15, 20, dc 1 0), (15, 21, dc 1 0), (16, 17, dc 1 0), (16, 18, dc 964767932 9),
  (16, 19, dc 1 0), (16, 20, dc 1 0), (16, 21, dc 990430423 9), (17, 18, dc 1 0),
  (17, 19, dc 1022749748 9), (17, 20, dc 1 0), (17, 21, dc 954215746 9),
  (18, 19, dc 940587083 9), (18, 20, dc 1 0), (18, 21, dc 1070941866 9), (19, 20, dc 1 0),
  (19, 21, dc 1 0), (20, 21, dc 1 0)]

end Aga8.Gerg.Tab
