/-
Generated by tools/gen_tables.py from /repo/src/detail.rs; do not edit.
Every number is a literal of the Rust text, as the exact decimal mantissa * 10^-exponent.
-/
import Verif.Dec

namespace Aga8.Detail.Tab

/-- `MMI`, src/detail.rs:13-35. -/
def MMI : Vector Dec 21 := #v[dc 16043 3, dc 280135 4, dc 4401 2, dc 3007 2, dc 44097 3, dc 58123 3, dc 58123 3,
    dc 7215 2, dc 7215 2, dc 86177 3, dc 100204 3, dc 114231 3, dc 128258 3, dc 142285 3,
    dc 20159 4, dc 319988 4, dc 2801 2, dc 180153 4, dc 34082 3, dc 40026 4, dc 39948 3]

/-- `AN`, src/detail.rs:38-97. -/
def AN : Vector Dec 58 := #v[dc 1538326 7, dc 1341953 6, dc (-2998583) 6, dc (-4831228) 8, dc 3757965 7,
    dc (-1589575) 6, dc (-5358847) 8, dc 88659463 8, dc (-71023704) 8, dc (-1471722) 6,
    dc 132185035 8, dc (-78665925) 8, dc 229129 14, dc 1576724 7, dc (-4363864) 7,
    dc (-4408159) 8, dc (-3433888) 9, dc 3205905 8, dc 2487355 8, dc 7332279 8,
    dc (-1600573) 9, dc 6424706 7, dc (-4162601) 7, dc (-6689957) 8, dc 2791795 7,
    dc (-6966051) 7, dc (-2860589) 9, dc (-8098836) 9, dc 3150547 6, dc 7224479 9,
    dc (-7057529) 7, dc 5349792 7, dc (-7931491) 8, dc (-1418465) 6, dc (-599905) 22,
    dc 1058402 7, dc 3431729 8, dc (-7022847) 9, dc 2495587 8, dc 4296818 8, dc 7465453 7,
    dc (-2919613) 7, dc 7294616 6, dc (-9936757) 6, dc (-5399808) 9, dc (-2432567) 7,
    dc 4987016 8, dc 3733797 9, dc 1874951 6, dc 2168144 9, dc (-6587164) 7, dc 205518 9,
    dc 9776195 9, dc (-2048708) 8, dc 1557322 8, dc 6862415 9, dc (-1226752) 9, dc 2850908 9]

/-- `BN`, src/detail.rs:100-103. -/
def BN : Vector Nat 58 := #v[1, 1, 1, 1, 1, 1, 1, 1, 1, 1, 1, 1, 1, 1, 1, 1, 1, 1, 2, 2, 2, 2, 2, 2, 2, 2, 2, 3, 3, 3,
    3, 3, 3, 3, 3, 3, 3, 4, 4, 4, 4, 4, 4, 4, 5, 5, 5, 5, 5, 6, 6, 7, 7, 8, 8, 8, 9, 9]

/-- `KN`, src/detail.rs:107-110. -/
def KN : Vector Nat 58 := #v[0, 0, 0, 0, 0, 0, 0, 0, 0, 0, 0, 0, 3, 2, 2, 2, 4, 4, 0, 0, 2, 2, 2, 4, 4, 4, 4, 0, 1, 1,
    2, 2, 3, 3, 4, 4, 4, 0, 0, 2, 2, 2, 4, 4, 0, 2, 2, 4, 4, 0, 2, 0, 2, 1, 2, 2, 2, 2]

/-- `UN`, src/detail.rs:113-118. -/
def UN : Vector Dec 58 := #v[dc 0 0, dc 5 1, dc 1 0, dc 35 1, dc (-5) 1, dc 45 1, dc 5 1, dc 75 1, dc 95 1, dc 6 0,
    dc 12 0, dc 125 1, dc (-6) 0, dc 2 0, dc 3 0, dc 2 0, dc 2 0, dc 11 0, dc (-5) 1, dc 5 1,
    dc 0 0, dc 4 0, dc 6 0, dc 21 0, dc 23 0, dc 22 0, dc (-1) 0, dc (-5) 1, dc 7 0, dc (-1) 0,
    dc 6 0, dc 4 0, dc 1 0, dc 9 0, dc (-13) 0, dc 21 0, dc 8 0, dc (-5) 1, dc 0 0, dc 2 0,
    dc 7 0, dc 9 0, dc 22 0, dc 23 0, dc 1 0, dc 9 0, dc 3 0, dc 8 0, dc 23 0, dc 15 1, dc 5 0,
    dc (-5) 1, dc 4 0, dc 7 0, dc 3 0, dc 0 0, dc 1 0, dc 0 0]

/-- `FN`, src/detail.rs:122-125. -/
def FN : Vector Nat 58 := #v[0, 0, 0, 0, 0, 0, 0, 0, 0, 0, 0, 0, 1, 0, 0, 0, 0, 0, 0, 0, 0, 0, 0, 0, 0, 0, 1, 0, 0, 1,
    0, 0, 0, 0, 1, 0, 0, 0, 0, 0, 0, 0, 0, 0, 0, 0, 0, 0, 0, 0, 0, 0, 0, 0, 0, 0, 0, 0]

/-- `GN`, src/detail.rs:129-132. -/
def GN : Vector Nat 58 := #v[0, 0, 0, 0, 1, 1, 0, 0, 0, 0, 0, 0, 0, 0, 0, 0, 0, 0, 0, 0, 0, 0, 0, 0, 1, 0, 0, 0, 1, 0,
    0, 1, 1, 1, 0, 0, 0, 0, 0, 0, 0, 0, 0, 0, 0, 0, 0, 0, 0, 0, 1, 0, 0, 1, 0, 1, 0, 0]

/-- `QN`, src/detail.rs:136-139. -/
def QN : Vector Nat 58 := #v[0, 0, 0, 0, 0, 0, 1, 0, 0, 0, 0, 0, 0, 0, 0, 1, 0, 0, 0, 0, 0, 0, 0, 0, 0, 1, 0, 1, 0, 0,
    0, 0, 0, 0, 0, 0, 1, 0, 0, 0, 0, 1, 0, 0, 0, 0, 1, 0, 1, 0, 0, 1, 0, 0, 0, 0, 0, 1]

/-- `SN`, src/detail.rs:142-145. -/
def SN : Vector Nat 58 := #v[0, 0, 0, 0, 0, 0, 0, 1, 1, 0, 0, 0, 0, 0, 0, 0, 0, 0, 0, 0, 0, 0, 0, 0, 0, 0, 0, 0, 0, 0,
    0, 0, 0, 0, 0, 0, 0, 0, 0, 0, 0, 0, 0, 0, 0, 0, 0, 0, 0, 0, 0, 0, 0, 0, 0, 0, 0, 0]

/-- `WN`, src/detail.rs:148-151. -/
def WN : Vector Nat 58 := #v[0, 0, 0, 0, 0, 0, 0, 0, 0, 1, 1, 1, 0, 0, 0, 0, 0, 0, 0, 0, 0, 0, 0, 0, 0, 0, 0, 0, 0, 0,
    0, 0, 0, 0, 0, 0, 0, 0, 0, 0, 0, 0, 0, 0, 0, 0, 0, 0, 0, 0, 0, 0, 0, 0, 0, 0, 0, 0]

/-- `EI`, src/detail.rs:154-176. -/
def EI : Vector Dec 21 := #v[dc 1513183 4, dc 9973778 5, dc 2419606 4, dc 2441667 4, dc 2981183 4, dc 3240689 4,
    dc 3376389 4, dc 3655999 4, dc 3706823 4, dc 402636293 6, dc 42772263 5, dc 450325022 6,
    dc 470840891 6, dc 489558373 6, dc 2695794 5, dc 1227667 4, dc 1055348 4, dc 5140156 4,
    dc 296355 3, dc 2610111 6, dc 1196299 4]

/-- `KI`, src/detail.rs:178-200. -/
def KI : Vector Dec 21 := #v[dc 4619255 7, dc 4479153 7, dc 4557489 7, dc 5279209 7, dc 583749 6, dc 6406937 7,
    dc 6341423 7, dc 6738577 7, dc 6798307 7, dc 7175118 7, dc 7525189 7, dc 784955 6,
    dc 8152731 7, dc 8437826 7, dc 3514916 7, dc 4186954 7, dc 4533894 7, dc 3825868 7,
    dc 4618263 7, dc 3589888 7, dc 4216551 7]

/-- `GI`, src/detail.rs:203-207. -/
def GI : Vector Dec 21 := #v[dc 0 0, dc 27815 6, dc 189065 6, dc 793 4, dc 141239 6, dc 256692 6, dc 281835 6,
    dc 332267 6, dc 366911 6, dc 289731 6, dc 337542 6, dc 383381 6, dc 427354 6, dc 469659 6,
    dc 34369 6, dc 21 3, dc 38953 6, dc 3325 4, dc 885 4, dc 0 0, dc 0 0]

/-- `QI`, src/detail.rs:210-213. -/
def QI : Vector Dec 21 := #v[dc 0 0, dc 0 0, dc 69 2, dc 0 0, dc 0 0, dc 0 0, dc 0 0, dc 0 0, dc 0 0, dc 0 0, dc 0 0,
    dc 0 0, dc 0 0, dc 0 0, dc 0 0, dc 0 0, dc 0 0, dc 106775 5, dc 633276 6, dc 0 0, dc 0 0]

/-- `FI`, src/detail.rs:215-219. -/
def FI : Vector Dec 21 := #v[dc 0 0, dc 0 0, dc 0 0, dc 0 0, dc 0 0, dc 0 0, dc 0 0, dc 0 0, dc 0 0, dc 0 0, dc 0 0,
    dc 0 0, dc 0 0, dc 0 0, dc 1 0, dc 0 0, dc 0 0, dc 0 0, dc 0 0, dc 0 0, dc 0 0]

/-- `SI`, src/detail.rs:221-226. -/
def SI : Vector Dec 21 := #v[dc 0 0, dc 0 0, dc 0 0, dc 0 0, dc 0 0, dc 0 0, dc 0 0, dc 0 0, dc 0 0, dc 0 0, dc 0 0,
    dc 0 0, dc 0 0, dc 0 0, dc 0 0, dc 0 0, dc 0 0, dc 15822 4, dc 39 2, dc 0 0, dc 0 0]

/-- `WI`, src/detail.rs:228-232. -/
def WI : Vector Dec 21 := #v[dc 0 0, dc 0 0, dc 0 0, dc 0 0, dc 0 0, dc 0 0, dc 0 0, dc 0 0, dc 0 0, dc 0 0, dc 0 0,
    dc 0 0, dc 0 0, dc 0 0, dc 0 0, dc 0 0, dc 0 0, dc 1 0, dc 0 0, dc 0 0, dc 0 0]

/-- `EIJ`, src/detail.rs:235-322. -/
def EIJ : Vector (Vector Dec 21) 21 := #v[
  #v[dc 1 0, dc 97164 5, dc 960644 6, dc 1 0, dc 994635 6, dc 101953 5, dc 989844 6,
      dc 100235 5, dc 999268 6, dc 1107274 6, dc 88088 5, dc 880973 6, dc 881067 6, dc 881161 6,
      dc 117052 5, dc 1 0, dc 990126 6, dc 708218 6, dc 931484 6, dc 1 0, dc 1 0],
  #v[dc 1 0, dc 1 0, dc 102274 5, dc 97012 5, dc 945939 6, dc 946914 6, dc 973384 6, dc 95934 5,
      dc 94552 5, dc 1 0, dc 1 0, dc 1 0, dc 1 0, dc 1 0, dc 108632 5, dc 1021 3, dc 100571 5,
      dc 746954 6, dc 902271 6, dc 1 0, dc 1 0],
  #v[dc 1 0, dc 1 0, dc 1 0, dc 925053 6, dc 960237 6, dc 906849 6, dc 897362 6, dc 726255 6,
      dc 859764 6, dc 855134 6, dc 831229 6, dc 80831 5, dc 786323 6, dc 765171 6, dc 128179 5,
      dc 1 0, dc 15 1, dc 849408 6, dc 955052 6, dc 1 0, dc 1 0],
  #v[dc 1 0, dc 1 0, dc 1 0, dc 1 0, dc 102256 5, dc 1 0, dc 101306 5, dc 1 0, dc 100532 5,
      dc 1 0, dc 1 0, dc 1 0, dc 1 0, dc 1 0, dc 116446 5, dc 1 0, dc 1 0, dc 693168 6,
      dc 946871 6, dc 1 0, dc 1 0],
  #v[dc 1 0, dc 1 0, dc 1 0, dc 1 0, dc 1 0, dc 1 0, dc 10049 4, dc 1 0, dc 1 0, dc 1 0, dc 1 0,
      dc 1 0, dc 1 0, dc 1 0, dc 1034787 6, dc 1 0, dc 1 0, dc 1 0, dc 1 0, dc 1 0, dc 1 0],
  #v[dc 1 0, dc 1 0, dc 1 0, dc 1 0, dc 1 0, dc 1 0, dc 1 0, dc 1 0, dc 1 0, dc 1 0, dc 1 0,
      dc 1 0, dc 1 0, dc 1 0, dc 13 1, dc 1 0, dc 1 0, dc 1 0, dc 1 0, dc 1 0, dc 1 0],
  #v[dc 1 0, dc 1 0, dc 1 0, dc 1 0, dc 1 0, dc 1 0, dc 1 0, dc 1 0, dc 1 0, dc 1 0, dc 1 0,
      dc 1 0, dc 1 0, dc 1 0, dc 13 1, dc 1 0, dc 1 0, dc 1 0, dc 1 0, dc 1 0, dc 1 0],
  #v[dc 1 0, dc 1 0, dc 1 0, dc 1 0, dc 1 0, dc 1 0, dc 1 0, dc 1 0, dc 1 0, dc 1 0, dc 1 0,
      dc 1 0, dc 1 0, dc 1 0, dc 1 0, dc 1 0, dc 1 0, dc 1 0, dc 1 0, dc 1 0, dc 1 0],
  #v[dc 1 0, dc 1 0, dc 1 0, dc 1 0, dc 1 0, dc 1 0, dc 1 0, dc 1 0, dc 1 0, dc 1 0, dc 1 0,
      dc 1 0, dc 1 0, dc 1 0, dc 1 0, dc 1 0, dc 1 0, dc 1 0, dc 1 0, dc 1 0, dc 1 0],
  #v[dc 1 0, dc 1 0, dc 1 0, dc 1 0, dc 1 0, dc 1 0, dc 1 0, dc 1 0, dc 1 0, dc 1 0, dc 1 0,
      dc 1 0, dc 1 0, dc 1 0, dc 1 0, dc 1 0, dc 1 0, dc 1 0, dc 1008692 6, dc 1 0, dc 1 0],
  #v[dc 1 0, dc 1 0, dc 1 0, dc 1 0, dc 1 0, dc 1 0, dc 1 0, dc 1 0, dc 1 0, dc 1 0, dc 1 0,
      dc 1 0, dc 1 0, dc 1 0, dc 1 0, dc 1 0, dc 1 0, dc 1 0, dc 1010126 6, dc 1 0, dc 1 0],
  #v[dc 1 0, dc 1 0, dc 1 0, dc 1 0, dc 1 0, dc 1 0, dc 1 0, dc 1 0, dc 1 0, dc 1 0, dc 1 0,
      dc 1 0, dc 1 0, dc 1 0, dc 1 0, dc 1 0, dc 1 0, dc 1 0, dc 1011501 6, dc 1 0, dc 1 0],
  #v[dc 1 0, dc 1 0, dc 1 0, dc 1 0, dc 1 0, dc 1 0, dc 1 0, dc 1 0, dc 1 0, dc 1 0, dc 1 0,
      dc 1 0, dc 1 0, dc 1 0, dc 1 0, dc 1 0, dc 1 0, dc 1 0, dc 1012821 6, dc 1 0, dc 1 0],
  #v[dc 1 0, dc 1 0, dc 1 0, dc 1 0, dc 1 0, dc 1 0, dc 1 0, dc 1 0, dc 1 0, dc 1 0, dc 1 0,
      dc 1 0, dc 1 0, dc 1 0, dc 1 0, dc 1 0, dc 1 0, dc 1 0, dc 1014089 6, dc 1 0, dc 1 0],
  #v[dc 1 0, dc 1 0, dc 1 0, dc 1 0, dc 1 0, dc 1 0, dc 1 0, dc 1 0, dc 1 0, dc 1 0, dc 1 0,
      dc 1 0, dc 1 0, dc 1 0, dc 1 0, dc 1 0, dc 11 1, dc 1 0, dc 1 0, dc 1 0, dc 1 0],
  #v[dc 1 0, dc 1 0, dc 1 0, dc 1 0, dc 1 0, dc 1 0, dc 1 0, dc 1 0, dc 1 0, dc 1 0, dc 1 0,
      dc 1 0, dc 1 0, dc 1 0, dc 1 0, dc 1 0, dc 1 0, dc 1 0, dc 1 0, dc 1 0, dc 1 0],
  #v[dc 1 0, dc 1 0, dc 1 0, dc 1 0, dc 1 0, dc 1 0, dc 1 0, dc 1 0, dc 1 0, dc 1 0, dc 1 0,
      dc 1 0, dc 1 0, dc 1 0, dc 1 0, dc 1 0, dc 1 0, dc 1 0, dc 1 0, dc 1 0, dc 1 0],
  #v[dc 1 0, dc 1 0, dc 1 0, dc 1 0, dc 1 0, dc 1 0, dc 1 0, dc 1 0, dc 1 0, dc 1 0, dc 1 0,
      dc 1 0, dc 1 0, dc 1 0, dc 1 0, dc 1 0, dc 1 0, dc 1 0, dc 1 0, dc 1 0, dc 1 0],
  #v[dc 1 0, dc 1 0, dc 1 0, dc 1 0, dc 1 0, dc 1 0, dc 1 0, dc 1 0, dc 1 0, dc 1 0, dc 1 0,
      dc 1 0, dc 1 0, dc 1 0, dc 1 0, dc 1 0, dc 1 0, dc 1 0, dc 1 0, dc 1 0, dc 1 0],
  #v[dc 1 0, dc 1 0, dc 1 0, dc 1 0, dc 1 0, dc 1 0, dc 1 0, dc 1 0, dc 1 0, dc 1 0, dc 1 0,
      dc 1 0, dc 1 0, dc 1 0, dc 1 0, dc 1 0, dc 1 0, dc 1 0, dc 1 0, dc 1 0, dc 1 0],
  #v[dc 1 0, dc 1 0, dc 1 0, dc 1 0, dc 1 0, dc 1 0, dc 1 0, dc 1 0, dc 1 0, dc 1 0, dc 1 0,
      dc 1 0, dc 1 0, dc 1 0, dc 1 0, dc 1 0, dc 1 0, dc 1 0, dc 1 0, dc 1 0, dc 1 0]]

/-- `UIJ`, src/detail.rs:324-409. -/
def UIJ : Vector (Vector Dec 21) 21 := #v[
  #v[dc 1 0, dc 886106 6, dc 963827 6, dc 1 0, dc 990877 6, dc 1 0, dc 992291 6, dc 1 0,
      dc 100367 5, dc 1302576 6, dc 1191904 6, dc 1205769 6, dc 1219634 6, dc 1233498 6,
      dc 115639 5, dc 1 0, dc 1 0, dc 1 0, dc 736833 6, dc 1 0, dc 1 0],
  #v[dc 1 0, dc 1 0, dc 835058 6, dc 816431 6, dc 915502 6, dc 1 0, dc 993556 6, dc 1 0, dc 1 0,
      dc 1 0, dc 1 0, dc 1 0, dc 1 0, dc 1 0, dc 408838 6, dc 1 0, dc 1 0, dc 1 0, dc 993476 6,
      dc 1 0, dc 1 0],
  #v[dc 1 0, dc 1 0, dc 1 0, dc 96987 5, dc 1 0, dc 1 0, dc 1 0, dc 1 0, dc 1 0, dc 1066638 6,
      dc 1077634 6, dc 1088178 6, dc 1098291 6, dc 1108021 6, dc 1 0, dc 1 0, dc 9 1, dc 1 0,
      dc 104529 5, dc 1 0, dc 1 0],
  #v[dc 1 0, dc 1 0, dc 1 0, dc 1 0, dc 1065173 6, dc 125 2, dc 125 2, dc 125 2, dc 125 2,
      dc 1 0, dc 1 0, dc 1 0, dc 1 0, dc 1 0, dc 161666 5, dc 1 0, dc 1 0, dc 1 0, dc 971926 6,
      dc 1 0, dc 1 0],
  #v[dc 1 0, dc 1 0, dc 1 0, dc 1 0, dc 1 0, dc 1 0, dc 1 0, dc 1 0, dc 1 0, dc 1 0, dc 1 0,
      dc 1 0, dc 1 0, dc 1 0, dc 1 0, dc 1 0, dc 1 0, dc 1 0, dc 1 0, dc 1 0, dc 1 0],
  #v[dc 1 0, dc 1 0, dc 1 0, dc 1 0, dc 1 0, dc 1 0, dc 1 0, dc 1 0, dc 1 0, dc 1 0, dc 1 0,
      dc 1 0, dc 1 0, dc 1 0, dc 1 0, dc 1 0, dc 1 0, dc 1 0, dc 1 0, dc 1 0, dc 1 0],
  #v[dc 1 0, dc 1 0, dc 1 0, dc 1 0, dc 1 0, dc 1 0, dc 1 0, dc 1 0, dc 1 0, dc 1 0, dc 1 0,
      dc 1 0, dc 1 0, dc 1 0, dc 1 0, dc 1 0, dc 1 0, dc 1 0, dc 1 0, dc 1 0, dc 1 0],
  #v[dc 1 0, dc 1 0, dc 1 0, dc 1 0, dc 1 0, dc 1 0, dc 1 0, dc 1 0, dc 1 0, dc 1 0, dc 1 0,
      dc 1 0, dc 1 0, dc 1 0, dc 1 0, dc 1 0, dc 1 0, dc 1 0, dc 1 0, dc 1 0, dc 1 0],
  #v[dc 1 0, dc 1 0, dc 1 0, dc 1 0, dc 1 0, dc 1 0, dc 1 0, dc 1 0, dc 1 0, dc 1 0, dc 1 0,
      dc 1 0, dc 1 0, dc 1 0, dc 1 0, dc 1 0, dc 1 0, dc 1 0, dc 1 0, dc 1 0, dc 1 0],
  #v[dc 1 0, dc 1 0, dc 1 0, dc 1 0, dc 1 0, dc 1 0, dc 1 0, dc 1 0, dc 1 0, dc 1 0, dc 1 0,
      dc 1 0, dc 1 0, dc 1 0, dc 1 0, dc 1 0, dc 1 0, dc 1 0, dc 1028973 6, dc 1 0, dc 1 0],
  #v[dc 1 0, dc 1 0, dc 1 0, dc 1 0, dc 1 0, dc 1 0, dc 1 0, dc 1 0, dc 1 0, dc 1 0, dc 1 0,
      dc 1 0, dc 1 0, dc 1 0, dc 1 0, dc 1 0, dc 1 0, dc 1 0, dc 1033754 6, dc 1 0, dc 1 0],
  #v[dc 1 0, dc 1 0, dc 1 0, dc 1 0, dc 1 0, dc 1 0, dc 1 0, dc 1 0, dc 1 0, dc 1 0, dc 1 0,
      dc 1 0, dc 1 0, dc 1 0, dc 1 0, dc 1 0, dc 1 0, dc 1 0, dc 1038338 6, dc 1 0, dc 1 0],
  #v[dc 1 0, dc 1 0, dc 1 0, dc 1 0, dc 1 0, dc 1 0, dc 1 0, dc 1 0, dc 1 0, dc 1 0, dc 1 0,
      dc 1 0, dc 1 0, dc 1 0, dc 1 0, dc 1 0, dc 1 0, dc 1 0, dc 1042735 6, dc 1 0, dc 1 0],
  #v[dc 1 0, dc 1 0, dc 1 0, dc 1 0, dc 1 0, dc 1 0, dc 1 0, dc 1 0, dc 1 0, dc 1 0, dc 1 0,
      dc 1 0, dc 1 0, dc 1 0, dc 1 0, dc 1 0, dc 1 0, dc 1 0, dc 1046966 6, dc 1 0, dc 1 0],
  #v[dc 1 0, dc 1 0, dc 1 0, dc 1 0, dc 1 0, dc 1 0, dc 1 0, dc 1 0, dc 1 0, dc 1 0, dc 1 0,
      dc 1 0, dc 1 0, dc 1 0, dc 1 0, dc 1 0, dc 1 0, dc 1 0, dc 1 0, dc 1 0, dc 1 0],
  #v[dc 1 0, dc 1 0, dc 1 0, dc 1 0, dc 1 0, dc 1 0, dc 1 0, dc 1 0, dc 1 0, dc 1 0, dc 1 0,
      dc 1 0, dc 1 0, dc 1 0, dc 1 0, dc 1 0, dc 1 0, dc 1 0, dc 1 0, dc 1 0, dc 1 0],
  #v[dc 1 0, dc 1 0, dc 1 0, dc 1 0, dc 1 0, dc 1 0, dc 1 0, dc 1 0, dc 1 0, dc 1 0, dc 1 0,
      dc 1 0, dc 1 0, dc 1 0, dc 1 0, dc 1 0, dc 1 0, dc 1 0, dc 1 0, dc 1 0, dc 1 0],
  #v[dc 1 0, dc 1 0, dc 1 0, dc 1 0, dc 1 0, dc 1 0, dc 1 0, dc 1 0, dc 1 0, dc 1 0, dc 1 0,
      dc 1 0, dc 1 0, dc 1 0, dc 1 0, dc 1 0, dc 1 0, dc 1 0, dc 1 0, dc 1 0, dc 1 0],
  #v[dc 1 0, dc 1 0, dc 1 0, dc 1 0, dc 1 0, dc 1 0, dc 1 0, dc 1 0, dc 1 0, dc 1 0, dc 1 0,
      dc 1 0, dc 1 0, dc 1 0, dc 1 0, dc 1 0, dc 1 0, dc 1 0, dc 1 0, dc 1 0, dc 1 0],
  #v[dc 1 0, dc 1 0, dc 1 0, dc 1 0, dc 1 0, dc 1 0, dc 1 0, dc 1 0, dc 1 0, dc 1 0, dc 1 0,
      dc 1 0, dc 1 0, dc 1 0, dc 1 0, dc 1 0, dc 1 0, dc 1 0, dc 1 0, dc 1 0, dc 1 0],
  #v[dc 1 0, dc 1 0, dc 1 0, dc 1 0, dc 1 0, dc 1 0, dc 1 0, dc 1 0, dc 1 0, dc 1 0, dc 1 0,
      dc 1 0, dc 1 0, dc 1 0, dc 1 0, dc 1 0, dc 1 0, dc 1 0, dc 1 0, dc 1 0, dc 1 0]]

/-- `KIJ`, src/detail.rs:411-496. -/
def KIJ : Vector (Vector Dec 21) 21 := #v[
  #v[dc 1 0, dc 100363 5, dc 995933 6, dc 1 0, dc 1007619 6, dc 1 0, dc 997596 6, dc 1 0,
      dc 1002529 6, dc 982962 6, dc 983565 6, dc 982707 6, dc 981849 6, dc 980991 6, dc 102326 5,
      dc 1 0, dc 1 0, dc 1 0, dc 100008 5, dc 1 0, dc 1 0],
  #v[dc 1 0, dc 1 0, dc 982361 6, dc 100796 5, dc 1 0, dc 1 0, dc 1 0, dc 1 0, dc 1 0, dc 1 0,
      dc 1 0, dc 1 0, dc 1 0, dc 1 0, dc 103227 5, dc 1 0, dc 1 0, dc 1 0, dc 942596 6, dc 1 0,
      dc 1 0],
  #v[dc 1 0, dc 1 0, dc 1 0, dc 100851 5, dc 1 0, dc 1 0, dc 1 0, dc 1 0, dc 1 0, dc 910183 6,
      dc 895362 6, dc 881152 6, dc 86752 5, dc 854406 6, dc 1 0, dc 1 0, dc 1 0, dc 1 0,
      dc 100779 5, dc 1 0, dc 1 0],
  #v[dc 1 0, dc 1 0, dc 1 0, dc 1 0, dc 986893 6, dc 1 0, dc 1 0, dc 1 0, dc 1 0, dc 1 0,
      dc 1 0, dc 1 0, dc 1 0, dc 1 0, dc 102034 5, dc 1 0, dc 1 0, dc 1 0, dc 999969 6, dc 1 0,
      dc 1 0],
  #v[dc 1 0, dc 1 0, dc 1 0, dc 1 0, dc 1 0, dc 1 0, dc 1 0, dc 1 0, dc 1 0, dc 1 0, dc 1 0,
      dc 1 0, dc 1 0, dc 1 0, dc 1 0, dc 1 0, dc 1 0, dc 1 0, dc 1 0, dc 1 0, dc 1 0],
  #v[dc 1 0, dc 1 0, dc 1 0, dc 1 0, dc 1 0, dc 1 0, dc 1 0, dc 1 0, dc 1 0, dc 1 0, dc 1 0,
      dc 1 0, dc 1 0, dc 1 0, dc 1 0, dc 1 0, dc 1 0, dc 1 0, dc 1 0, dc 1 0, dc 1 0],
  #v[dc 1 0, dc 1 0, dc 1 0, dc 1 0, dc 1 0, dc 1 0, dc 1 0, dc 1 0, dc 1 0, dc 1 0, dc 1 0,
      dc 1 0, dc 1 0, dc 1 0, dc 1 0, dc 1 0, dc 1 0, dc 1 0, dc 1 0, dc 1 0, dc 1 0],
  #v[dc 1 0, dc 1 0, dc 1 0, dc 1 0, dc 1 0, dc 1 0, dc 1 0, dc 1 0, dc 1 0, dc 1 0, dc 1 0,
      dc 1 0, dc 1 0, dc 1 0, dc 1 0, dc 1 0, dc 1 0, dc 1 0, dc 1 0, dc 1 0, dc 1 0],
  #v[dc 1 0, dc 1 0, dc 1 0, dc 1 0, dc 1 0, dc 1 0, dc 1 0, dc 1 0, dc 1 0, dc 1 0, dc 1 0,
      dc 1 0, dc 1 0, dc 1 0, dc 1 0, dc 1 0, dc 1 0, dc 1 0, dc 1 0, dc 1 0, dc 1 0],
  #v[dc 1 0, dc 1 0, dc 1 0, dc 1 0, dc 1 0, dc 1 0, dc 1 0, dc 1 0, dc 1 0, dc 1 0, dc 1 0,
      dc 1 0, dc 1 0, dc 1 0, dc 1 0, dc 1 0, dc 1 0, dc 1 0, dc 96813 5, dc 1 0, dc 1 0],
  #v[dc 1 0, dc 1 0, dc 1 0, dc 1 0, dc 1 0, dc 1 0, dc 1 0, dc 1 0, dc 1 0, dc 1 0, dc 1 0,
      dc 1 0, dc 1 0, dc 1 0, dc 1 0, dc 1 0, dc 1 0, dc 1 0, dc 96287 5, dc 1 0, dc 1 0],
  #v[dc 1 0, dc 1 0, dc 1 0, dc 1 0, dc 1 0, dc 1 0, dc 1 0, dc 1 0, dc 1 0, dc 1 0, dc 1 0,
      dc 1 0, dc 1 0, dc 1 0, dc 1 0, dc 1 0, dc 1 0, dc 1 0, dc 957828 6, dc 1 0, dc 1 0],
  #v[dc 1 0, dc 1 0, dc 1 0, dc 1 0, dc 1 0, dc 1 0, dc 1 0, dc 1 0, dc 1 0, dc 1 0, dc 1 0,
      dc 1 0, dc 1 0, dc 1 0, dc 1 0, dc 1 0, dc 1 0, dc 1 0, dc 952441 6, dc 1 0, dc 1 0],
  #v[dc 1 0, dc 1 0, dc 1 0, dc 1 0, dc 1 0, dc 1 0, dc 1 0, dc 1 0, dc 1 0, dc 1 0, dc 1 0,
      dc 1 0, dc 1 0, dc 1 0, dc 1 0, dc 1 0, dc 1 0, dc 1 0, dc 948338 6, dc 1 0, dc 1 0],
  #v[dc 1 0, dc 1 0, dc 1 0, dc 1 0, dc 1 0, dc 1 0, dc 1 0, dc 1 0, dc 1 0, dc 1 0, dc 1 0,
      dc 1 0, dc 1 0, dc 1 0, dc 1 0, dc 1 0, dc 1 0, dc 1 0, dc 1 0, dc 1 0, dc 1 0],
  #v[dc 1 0, dc 1 0, dc 1 0, dc 1 0, dc 1 0, dc 1 0, dc 1 0, dc 1 0, dc 1 0, dc 1 0, dc 1 0,
      dc 1 0, dc 1 0, dc 1 0, dc 1 0, dc 1 0, dc 1 0, dc 1 0, dc 1 0, dc 1 0, dc 1 0],
  #v[dc 1 0, dc 1 0, dc 1 0, dc 1 0, dc 1 0, dc 1 0, dc 1 0, dc 1 0, dc 1 0, dc 1 0, dc 1 0,
      dc 1 0, dc 1 0, dc 1 0, dc 1 0, dc 1 0, dc 1 0, dc 1 0, dc 1 0, dc 1 0, dc 1 0],
  #v[dc 1 0, dc 1 0, dc 1 0, dc 1 0, dc 1 0, dc 1 0, dc 1 0, dc 1 0, dc 1 0, dc 1 0, dc 1 0,
      dc 1 0, dc 1 0, dc 1 0, dc 1 0, dc 1 0, dc 1 0, dc 1 0, dc 1 0, dc 1 0, dc 1 0],
  #v[dc 1 0, dc 1 0, dc 1 0, dc 1 0, dc 1 0, dc 1 0, dc 1 0, dc 1 0, dc 1 0, dc 1 0, dc 1 0,
      dc 1 0, dc 1 0, dc 1 0, dc 1 0, dc 1 0, dc 1 0, dc 1 0, dc 1 0, dc 1 0, dc 1 0],
  #v[dc 1 0, dc 1 0, dc 1 0, dc 1 0, dc 1 0, dc 1 0, dc 1 0, dc 1 0, dc 1 0, dc 1 0, dc 1 0,
      dc 1 0, dc 1 0, dc 1 0, dc 1 0, dc 1 0, dc 1 0, dc 1 0, dc 1 0, dc 1 0, dc 1 0],
  #v[dc 1 0, dc 1 0, dc 1 0, dc 1 0, dc 1 0, dc 1 0, dc 1 0, dc 1 0, dc 1 0, dc 1 0, dc 1 0,
      dc 1 0, dc 1 0, dc 1 0, dc 1 0, dc 1 0, dc 1 0, dc 1 0, dc 1 0, dc 1 0, dc 1 0]]

/-- `GIJ`, src/detail.rs:498-583. -/
def GIJ : Vector (Vector Dec 21) 21 := #v[
  #v[dc 1 0, dc 1 0, dc 807653 6, dc 1 0, dc 1 0, dc 1 0, dc 1 0, dc 1 0, dc 1 0, dc 1 0,
      dc 1 0, dc 1 0, dc 1 0, dc 1 0, dc 195731 5, dc 1 0, dc 1 0, dc 1 0, dc 1 0, dc 1 0,
      dc 1 0],
  #v[dc 1 0, dc 1 0, dc 982746 6, dc 1 0, dc 1 0, dc 1 0, dc 1 0, dc 1 0, dc 1 0, dc 1 0,
      dc 1 0, dc 1 0, dc 1 0, dc 1 0, dc 1 0, dc 1 0, dc 1 0, dc 1 0, dc 1 0, dc 1 0, dc 1 0],
  #v[dc 1 0, dc 1 0, dc 1 0, dc 370296 6, dc 1 0, dc 1 0, dc 1 0, dc 1 0, dc 1 0, dc 1 0,
      dc 1 0, dc 1 0, dc 1 0, dc 1 0, dc 1 0, dc 1 0, dc 1 0, dc 167309 5, dc 1 0, dc 1 0,
      dc 1 0],
  #v[dc 1 0, dc 1 0, dc 1 0, dc 1 0, dc 1 0, dc 1 0, dc 1 0, dc 1 0, dc 1 0, dc 1 0, dc 1 0,
      dc 1 0, dc 1 0, dc 1 0, dc 1 0, dc 1 0, dc 1 0, dc 1 0, dc 1 0, dc 1 0, dc 1 0],
  #v[dc 1 0, dc 1 0, dc 1 0, dc 1 0, dc 1 0, dc 1 0, dc 1 0, dc 1 0, dc 1 0, dc 1 0, dc 1 0,
      dc 1 0, dc 1 0, dc 1 0, dc 1 0, dc 1 0, dc 1 0, dc 1 0, dc 1 0, dc 1 0, dc 1 0],
  #v[dc 1 0, dc 1 0, dc 1 0, dc 1 0, dc 1 0, dc 1 0, dc 1 0, dc 1 0, dc 1 0, dc 1 0, dc 1 0,
      dc 1 0, dc 1 0, dc 1 0, dc 1 0, dc 1 0, dc 1 0, dc 1 0, dc 1 0, dc 1 0, dc 1 0],
  #v[dc 1 0, dc 1 0, dc 1 0, dc 1 0, dc 1 0, dc 1 0, dc 1 0, dc 1 0, dc 1 0, dc 1 0, dc 1 0,
      dc 1 0, dc 1 0, dc 1 0, dc 1 0, dc 1 0, dc 1 0, dc 1 0, dc 1 0, dc 1 0, dc 1 0],
  #v[dc 1 0, dc 1 0, dc 1 0, dc 1 0, dc 1 0, dc 1 0, dc 1 0, dc 1 0, dc 1 0, dc 1 0, dc 1 0,
      dc 1 0, dc 1 0, dc 1 0, dc 1 0, dc 1 0, dc 1 0, dc 1 0, dc 1 0, dc 1 0, dc 1 0],
  #v[dc 1 0, dc 1 0, dc 1 0, dc 1 0, dc 1 0, dc 1 0, dc 1 0, dc 1 0, dc 1 0, dc 1 0, dc 1 0,
      dc 1 0, dc 1 0, dc 1 0, dc 1 0, dc 1 0, dc 1 0, dc 1 0, dc 1 0, dc 1 0, dc 1 0],
  #v[dc 1 0, dc 1 0, dc 1 0, dc 1 0, dc 1 0, dc 1 0, dc 1 0, dc 1 0, dc 1 0, dc 1 0, dc 1 0,
      dc 1 0, dc 1 0, dc 1 0, dc 1 0, dc 1 0, dc 1 0, dc 1 0, dc 1 0, dc 1 0, dc 1 0],
  #v[dc 1 0, dc 1 0, dc 1 0, dc 1 0, dc 1 0, dc 1 0, dc 1 0, dc 1 0, dc 1 0, dc 1 0, dc 1 0,
      dc 1 0, dc 1 0, dc 1 0, dc 1 0, dc 1 0, dc 1 0, dc 1 0, dc 1 0, dc 1 0, dc 1 0],
  #v[dc 1 0, dc 1 0, dc 1 0, dc 1 0, dc 1 0, dc 1 0, dc 1 0, dc 1 0, dc 1 0, dc 1 0, dc 1 0,
      dc 1 0, dc 1 0, dc 1 0, dc 1 0, dc 1 0, dc 1 0, dc 1 0, dc 1 0, dc 1 0, dc 1 0],
  #v[dc 1 0, dc 1 0, dc 1 0, dc 1 0, dc 1 0, dc 1 0, dc 1 0, dc 1 0, dc 1 0, dc 1 0, dc 1 0,
      dc 1 0, dc 1 0, dc 1 0, dc 1 0, dc 1 0, dc 1 0, dc 1 0, dc 1 0, dc 1 0, dc 1 0],
  #v[dc 1 0, dc 1 0, dc 1 0, dc 1 0, dc 1 0, dc 1 0, dc 1 0, dc 1 0, dc 1 0, dc 1 0, dc 1 0,
      dc 1 0, dc 1 0, dc 1 0, dc 1 0, dc 1 0, dc 1 0, dc 1 0, dc 1 0, dc 1 0, dc 1 0],
  #v[dc 1 0, dc 1 0, dc 1 0, dc 1 0, dc 1 0, dc 1 0, dc 1 0, dc 1 0, dc 1 0, dc 1 0, dc 1 0,
      dc 1 0, dc 1 0, dc 1 0, dc 1 0, dc 1 0, dc 1 0, dc 1 0, dc 1 0, dc 1 0, dc 1 0],
  #v[dc 1 0, dc 1 0, dc 1 0, dc 1 0, dc 1 0, dc 1 0, dc 1 0, dc 1 0, dc 1 0, dc 1 0, dc 1 0,
      dc 1 0, dc 1 0, dc 1 0, dc 1 0, dc 1 0, dc 1 0, dc 1 0, dc 1 0, dc 1 0, dc 1 0],
  #v[dc 1 0, dc 1 0, dc 1 0, dc 1 0, dc 1 0, dc 1 0, dc 1 0, dc 1 0, dc 1 0, dc 1 0, dc 1 0,
      dc 1 0, dc 1 0, dc 1 0, dc 1 0, dc 1 0, dc 1 0, dc 1 0, dc 1 0, dc 1 0, dc 1 0],
  #v[dc 1 0, dc 1 0, dc 1 0, dc 1 0, dc 1 0, dc 1 0, dc 1 0, dc 1 0, dc 1 0, dc 1 0, dc 1 0,
      dc 1 0, dc 1 0, dc 1 0, dc 1 0, dc 1 0, dc 1 0, dc 1 0, dc 1 0, dc 1 0, dc 1 0],
  #v[dc 1 0, dc 1 0, dc 1 0, dc 1 0, dc 1 0, dc 1 0, dc 1 0, dc 1 0, dc 1 0, dc 1 0, dc 1 0,
      dc 1 0, dc 1 0, dc 1 0, dc 1 0, dc 1 0, dc 1 0, dc 1 0, dc 1 0, dc 1 0, dc 1 0],
  #v[dc 1 0, dc 1 0, dc 1 0, dc 1 0, dc 1 0, dc 1 0, dc 1 0, dc 1 0, dc 1 0, dc 1 0, dc 1 0,
      dc 1 0, dc 1 0, dc 1 0, dc 1 0, dc 1 0, dc 1 0, dc 1 0, dc 1 0, dc 1 0, dc 1 0],
  #v[dc 1 0, dc 1 0, dc 1 0, dc 1 0, dc 1 0, dc 1 0, dc 1 0, dc 1 0, dc 1 0, dc 1 0, dc 1 0,
      dc 1 0, dc 1 0, dc 1 0, dc 1 0, dc 1 0, dc 1 0, dc 1 0, dc 1 0, dc 1 0, dc 1 0]]

/-- `TH0I`, src/detail.rs:585-607. -/
def TH0I : Vector (Vector Dec 7) 21 := #v[
  #v[dc 0 0, dc 0 0, dc 0 0, dc 820659 3, dc 17841 2, dc 106282 2, dc 109053 2],
  #v[dc 0 0, dc 0 0, dc 0 0, dc 662738 3, dc 680562 3, dc 174006 2, dc 0 0],
  #v[dc 0 0, dc 0 0, dc 0 0, dc 919306 3, dc 86507 2, dc 483553 3, dc 341109 3],
  #v[dc 0 0, dc 0 0, dc 0 0, dc 559314 3, dc 223284 3, dc 103138 2, dc 107129 2],
  #v[dc 0 0, dc 0 0, dc 0 0, dc 479856 3, dc 200893 3, dc 955312 3, dc 102729 2],
  #v[dc 0 0, dc 0 0, dc 0 0, dc 43827 2, dc 198018 3, dc 190502 2, dc 893765 3],
  #v[dc 0 0, dc 0 0, dc 0 0, dc 46827 2, dc 183636 3, dc 19141 1, dc 903185 3],
  #v[dc 0 0, dc 0 0, dc 0 0, dc 292503 3, dc 910237 3, dc 191937 2, dc 0 0],
  #v[dc 0 0, dc 0 0, dc 0 0, dc 17867 2, dc 840538 3, dc 177425 2, dc 0 0],
  #v[dc 0 0, dc 0 0, dc 0 0, dc 182326 3, dc 859207 3, dc 182659 2, dc 0 0],
  #v[dc 0 0, dc 0 0, dc 0 0, dc 169789 3, dc 836195 3, dc 176046 2, dc 0 0],
  #v[dc 0 0, dc 0 0, dc 0 0, dc 158922 3, dc 815064 3, dc 169307 2, dc 0 0],
  #v[dc 0 0, dc 0 0, dc 0 0, dc 156854 3, dc 814882 3, dc 169379 2, dc 0 0],
  #v[dc 0 0, dc 0 0, dc 0 0, dc 164947 3, dc 836264 3, dc 175024 2, dc 0 0],
  #v[dc 0 0, dc 0 0, dc 0 0, dc 228734 3, dc 326843 3, dc 165171 2, dc 167169 2],
  #v[dc 0 0, dc 0 0, dc 0 0, dc 223571 2, dc 111669 2, dc 0 0, dc 0 0],
  #v[dc 0 0, dc 0 0, dc 0 0, dc 155045 2, dc 704525 3, dc 0 0, dc 0 0],
  #v[dc 0 0, dc 0 0, dc 0 0, dc 268795 3, dc 114141 2, dc 250737 2, dc 0 0],
  #v[dc 0 0, dc 0 0, dc 0 0, dc 183363 2, dc 847181 3, dc 0 0, dc 0 0],
  #v[dc 0 0, dc 0 0, dc 0 0, dc 0 0, dc 0 0, dc 0 0, dc 0 0],
  #v[dc 0 0, dc 0 0, dc 0 0, dc 0 0, dc 0 0, dc 0 0, dc 0 0]]

/-- The literal assignments `self.n0i[i][j] = v` of `setup`, in program order, src/detail.rs:780-926. -/
def n0iAsg : List (Nat × Nat × Dec) := [
  (0, 2, dc 400088 5), (0, 3, dc 76315 5), (0, 4, dc 46 4), (0, 5, dc 874432 5),
  (0, 6, dc (-446921) 5), (0, 0, dc 2983843397 8), (0, 1, dc (-1599969151) 5),
  (1, 2, dc 350031 5), (1, 3, dc 13732 5), (1, 4, dc (-1466) 4), (1, 5, dc 90066 5),
  (1, 6, dc 0 0), (1, 0, dc 1756770785 8), (1, 1, dc (-2801729072) 6), (2, 2, dc 350002 5),
  (2, 3, dc 204452 5), (2, 4, dc (-106044) 5), (2, 5, dc 203366 5), (2, 6, dc 1393 5),
  (2, 0, dc 2065844696 8), (2, 1, dc (-4902171516) 6), (3, 2, dc 400263 5), (3, 3, dc 433939 5),
  (3, 4, dc 123722 5), (3, 5, dc 131974 4), (3, 6, dc (-601989) 5), (3, 0, dc 3673005938 8),
  (3, 1, dc (-2363965301) 5), (4, 2, dc 402939 5), (4, 3, dc 660569 5), (4, 4, dc 3197 3),
  (4, 5, dc 191921 4), (4, 6, dc (-837267) 5), (4, 0, dc 4470909619 8),
  (4, 1, dc (-3123663551) 5), (5, 2, dc 406714 5), (5, 3, dc 897575 5), (5, 4, dc 525156 5),
  (5, 5, dc 251423 4), (5, 6, dc 161388 4), (5, 0, dc 3430180349 8), (5, 1, dc (-3852550276) 5),
  (6, 2, dc 433944 5), (6, 3, dc 944893 5), (6, 4, dc 689406 5), (6, 5, dc 244618 4),
  (6, 6, dc 147824 4), (6, 0, dc 3653237783 8), (6, 1, dc (-3895780933) 5), (7, 2, dc 4 0),
  (7, 3, dc 117618 4), (7, 4, dc 201101 4), (7, 5, dc 331688 4), (7, 6, dc 0 0),
  (7, 0, dc 4317218626 8), (7, 1, dc (-5119830946) 5), (8, 2, dc 4 0), (8, 3, dc 895043 5),
  (8, 4, dc 21836 3), (8, 5, dc 334032 4), (8, 6, dc 0 0), (8, 0, dc 4267837089 8),
  (8, 1, dc (-4521583) 2), (9, 2, dc 4 0), (9, 3, dc 116977 4), (9, 4, dc 268142 4),
  (9, 5, dc 386164 4), (9, 6, dc 0 0), (9, 0, dc 4699717188 8), (9, 1, dc (-5274683318) 5),
  (10, 2, dc 4 0), (10, 3, dc 137266 4), (10, 4, dc 304707 4), (10, 5, dc 435561 4),
  (10, 6, dc 0 0), (10, 0, dc 5207631631 8), (10, 1, dc (-5710481056) 5), (11, 2, dc 4 0),
  (11, 3, dc 156865 4), (11, 4, dc 338029 4), (11, 5, dc 481731 4), (11, 6, dc 0 0),
  (11, 0, dc 5725830934 8), (11, 1, dc (-6054676385) 5), (12, 2, dc 4 0), (12, 3, dc 180241 4),
  (12, 4, dc 381235 4), (12, 5, dc 533415 4), (12, 6, dc 0 0), (12, 0, dc 6209646901 8),
  (12, 1, dc (-6660012837) 5), (13, 2, dc 4 0), (13, 3, dc 210069 4), (13, 4, dc 434931 4),
  (13, 5, dc 583657 4), (13, 6, dc 0 0), (13, 0, dc 6593909154 8), (13, 1, dc (-7413145483) 5),
  (14, 2, dc 247906 5), (14, 3, dc 95806 5), (14, 4, dc 45444 5), (14, 5, dc 156039 5),
  (14, 6, dc (-13756) 4), (14, 0, dc 1307520288 8), (14, 1, dc (-5836943696) 6),
  (15, 2, dc 350146 5), (15, 3, dc 107558 5), (15, 4, dc 101334 5), (15, 5, dc 0 0),
  (15, 6, dc 0 0), (15, 0, dc 168017173 7), (15, 1, dc (-231832269) 5), (16, 2, dc 350055 5),
  (16, 3, dc 102865 5), (16, 4, dc 493 5), (16, 5, dc 0 0), (16, 6, dc 0 0),
  (16, 0, dc 1745786899 8), (16, 1, dc (-2635244116) 6), (17, 2, dc 400392 5),
  (17, 3, dc 1059 5), (17, 4, dc 98763 5), (17, 5, dc 306904 5), (17, 6, dc 0 0),
  (17, 0, dc 2157882705 8), (17, 1, dc (-7766733078) 6), (18, 2, dc 4 0), (18, 3, dc 311942 5),
  (18, 4, dc 100243 5), (18, 5, dc 0 0), (18, 6, dc 0 0), (18, 0, dc 215830944 7),
  (18, 1, dc (-6069035869) 6), (19, 2, dc 25 1), (19, 3, dc 0 0), (19, 4, dc 0 0),
  (19, 5, dc 0 0), (19, 6, dc 0 0), (19, 0, dc 1004639507 8), (19, 1, dc (-745375) 3),
  (20, 2, dc 25 1), (20, 3, dc 0 0), (20, 4, dc 0 0), (20, 5, dc 0 0), (20, 6, dc 0 0),
  (20, 0, dc 1004639507 8), (20, 1, dc (-745375) 3)]

end Aga8.Detail.Tab
